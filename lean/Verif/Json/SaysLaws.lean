import Verif.Spec.JsonSays
import Verif.Json.KeepLaws
import Verif.Props.Version

/-!
# What is written was read

GENERATED by `tools/gen_says.py`; do not edit by hand.  `SayC n c`: whatever is true of every word of the documents less
than `n` deep that the codec `c` reads, one into the other, and of blank words, is true of every word of what `c` writes.
-/

namespace Verif

open Json (foldKey)

set_option linter.unusedSectionVars false
set_option linter.unusedSimpArgs false
set_option linter.unusedVariables false

variable [FloatIO]

/-- A condition on words and where they are. -/
abbrev Words := List String → Word → Prop
/-- The condition is true of every word of the document. -/
def All (P : Words) (j : Json) : Prop := ∀ p w, j.Says p w → P p w
/-- The condition that `P` is on what is below a member `k`. -/
def Words.below (P : Words) (k : String) : Words := fun p w => ∀ l, foldKey l = foldKey k → P (l :: p) w
/-- Blank words meet the condition. -/
def Words.Lax (P : Words) : Prop := ∀ p w, w.Blank → P p w

theorem Words.Lax.below {P : Words} (h : P.Lax) (k : String) : (P.below k).Lax := fun p w hw l _ => h (l :: p) w hw
theorem below_congr {P : Words} {k l : String} (h : foldKey k = foldKey l) : P.below k = P.below l := by
  unfold Words.below; rw [h]

theorem all_null {P : Words} : All P .null := nofun
theorem all_num {P : Words} {l : NumLit} : All P (.num l) := nofun
theorem all_str {P : Words} {s : String} : All P (.str s) ↔ P [] (.str s) :=
  ⟨fun h => h _ _ (.str s), fun h p w hw => by cases hw; exact h⟩
theorem all_bool {P : Words} {b : Bool} : All P (.bool b) ↔ P [] (.bool b) :=
  ⟨fun h => h _ _ (.bool b), fun h p w hw => by cases hw; exact h⟩
theorem all_arr {P : Words} {js : List Json} : All P (.arr js) ↔ ∀ j ∈ js, All P j :=
  ⟨fun h j hj p w hw => h p w (.elem hj hw), fun h p w hw => by cases hw with | elem hj hw => exact h _ hj p w hw⟩
theorem all_obj {P : Words} {ms : List (String × Json)} : All P (.obj ms) ↔ ∀ m ∈ ms, All (P.below m.1) m.2 := by
  constructor
  · exact fun h m hm p w hw l hl => h (l :: p) w (.member hm hl hw)
  · intro h p w hw
    cases hw with
    | member hm hk hw => exact h _ hm _ w hw _ hk

/-- If `c` writes `x`, the condition is true of every word of it. -/
def OutS {α : Type} (P : Words) (c : JCodec α) (x : α) : Prop := ∀ j, c.enc x = some j → All P j

/-- See the header. -/
def SayC {α : Type} (n : Nat) (c : JCodec α) : Prop :=
  ∀ P : Words, P.Lax → ∃ I : α → Prop, I c.zero ∧ (∀ x, I x → OutS P c x) ∧
    ∀ j x y, j.depth < n → All P j → I x → c.dec j x = some y → I y

/-- The same for the fields of a struct. -/
def SayF {β : Type} (n : Nat) (F : JFields β) : Prop :=
  ∀ P : Words, P.Lax → ∃ K : β → Prop, K F.zero ∧
    (∀ b ms, K b → F.enc b = some ms → ∀ m ∈ ms, All (P.below m.1) m.2) ∧
    ∀ k j b b', j.depth < n → All (P.below k) j → K b → F.set k j b = some b' → K b'

theorem SayC.mono {α : Type} {m n : Nat} {c : JCodec α} (h : SayC n c) (hmn : m ≤ n) : SayC m c := by
  intro P hP
  obtain ⟨I, hz, ho, hd⟩ := h P hP
  exact ⟨I, hz, ho, fun j x y hj => hd j x y (by omega)⟩

theorem say_string {n : Nat} : SayC n JCodec.string := by
  intro P hP
  refine ⟨fun s => P [] (.str s), hP _ _ rfl, fun s h j hj => ?_, fun j x y _ hj hx hd => ?_⟩
  · simp only [JCodec.string, Option.some.injEq] at hj
    subst hj
    exact all_str.2 h
  · cases j <;> simp only [JCodec.string, Option.some.injEq, reduceCtorEq] at hd
    · exact hd ▸ hx
    · exact hd ▸ all_str.1 hj

theorem say_bool {n : Nat} : SayC n JCodec.bool := by
  intro P hP
  refine ⟨fun s => P [] (.bool s), hP _ _ rfl, fun s h j hj => ?_, fun j x y _ hj hx hd => ?_⟩
  · simp only [JCodec.bool, Option.some.injEq] at hj
    subst hj
    exact all_bool.2 h
  · cases j <;> simp only [JCodec.bool, Option.some.injEq, reduceCtorEq] at hd
    · exact hd ▸ hx
    · exact hd ▸ all_bool.1 hj

theorem say_mute {α : Type} {n : Nat} {c : JCodec α} (h : ∀ x j, c.enc x = some j → ∃ l, j = .num l) : SayC n c := by
  intro P _
  refine ⟨fun _ => True, trivial, fun x _ j hj => ?_, fun _ _ _ _ _ _ _ => trivial⟩
  obtain ⟨l, rfl⟩ := h x j hj
  exact all_num

theorem say_option {α : Type} {n : Nat} {c : JCodec α} (h : SayC n c) : SayC n (JCodec.option c) := by
  intro P hP
  obtain ⟨I, hz, ho, hd⟩ := h P hP
  refine ⟨fun o => ∀ a ∈ o, I a, (by intro a ha; cases ha), fun o h j hj => ?_, fun j x y hj ha hx he => ?_⟩
  · cases o with
    | none =>
      simp only [JCodec.option, Option.some.injEq] at hj
      subst hj
      exact all_null
    | some a => exact ho a (h a rfl) j hj
  · by_cases hn : j = .null
    · subst hn
      simp only [JCodec.option, Option.some.injEq] at he
      subst he
      intro a ha
      cases ha
    · rw [option_dec_ne_null c hn, Option.map_eq_some_iff] at he
      obtain ⟨a, he, rfl⟩ := he
      rintro b ⟨⟩
      refine hd j _ a hj ha ?_ he
      cases x with
      | none => exact hz
      | some b => exact hx b rfl

theorem say_decList {α : Type} {n : Nat} {P : Words} {c : JCodec α} {I : α → Prop} (hz : I c.zero)
    (hd : ∀ j x y, j.depth < n → All P j → I x → c.dec j x = some y → I y) : ∀ (js : List Json) (olds xs : List α),
    (∀ j ∈ js, j.depth < n ∧ All P j) → (∀ x ∈ olds, I x) → JCodec.decList c js olds = some xs → ∀ x ∈ xs, I x
  | [], olds, xs, _, _, h => by
    simp only [JCodec.decList, Option.some.injEq] at h
    subst h
    simp
  | j :: js, olds, xs, hj, ho, h => by
    simp only [JCodec.decList] at h
    cases hc : c.dec j (olds.headD c.zero) with
    | none => rw [hc] at h; cases h
    | some a =>
      simp only [hc, Option.map_eq_some_iff] at h
      obtain ⟨ys, hy, rfl⟩ := h
      intro x hx
      cases hx with
      | head =>
        have := hj j List.mem_cons_self
        refine hd j _ _ this.1 this.2 ?_ hc
        cases olds with
        | nil => exact hz
        | cons o os => exact ho o List.mem_cons_self
      | tail _ hx =>
        exact say_decList hz hd js olds.tail ys (fun i hi => hj i (List.mem_cons_of_mem _ hi))
          (fun i hi => ho i (List.mem_of_mem_tail hi)) hy x hx

theorem say_encList {α : Type} {P : Words} {c : JCodec α} : ∀ (xs : List α) (js : List Json), (∀ x ∈ xs, OutS P c x) →
    JCodec.encList c xs = some js → ∀ j ∈ js, All P j
  | [], js, _, h => by
    simp only [JCodec.encList, Option.some.injEq] at h
    subst h
    simp
  | x :: xs, js, hx, h => by
    simp only [JCodec.encList] at h
    cases hc : c.enc x with
    | none => rw [hc] at h; cases h
    | some a =>
      simp only [hc, Option.map_eq_some_iff] at h
      obtain ⟨ys, hy, rfl⟩ := h
      intro j hj
      cases hj with
      | head => exact hx x List.mem_cons_self _ hc
      | tail _ hj => exact say_encList xs ys (fun i hi => hx i (List.mem_cons_of_mem _ hi)) hy j hj

theorem say_list {α : Type} {n : Nat} {c : JCodec α} (h : SayC n c) : SayC n (JCodec.pslice c) := by
  intro P hP
  obtain ⟨I, hz, ho, hd⟩ := h P hP
  refine ⟨fun p => ∀ a ∈ p.elems, I a, (by intro a ha; cases ha), fun p h j hj => ?_, fun j x y hj ha hx he => ?_⟩
  · cases p with
    | list xs =>
      simp only [JCodec.pslice, Option.map_eq_some_iff] at hj
      obtain ⟨js, hj, rfl⟩ := hj
      exact all_arr.2 (say_encList xs js (fun x hx => ho x (h x hx)) hj)
    | _ =>
      simp only [JCodec.pslice, Option.some.injEq] at hj
      subst hj
      exact all_null
  · cases j <;> simp only [JCodec.pslice, Option.some.injEq, reduceCtorEq, Option.map_eq_some_iff] at he
    · subst he
      intro a ha
      cases ha
    · rename_i js
      obtain ⟨xs, he, rfl⟩ := he
      have hj : Json.depthL js + 1 < n := hj
      exact say_decList hz hd js _ xs (fun i hi => ⟨by have := depth_elem hi; omega, all_arr.1 ha i hi⟩) hx he

/-! ### Structs -/

theorem sayF_nil {n : Nat} : SayF n .nil := by
  intro P _
  refine ⟨fun _ => True, trivial, fun b ms _ h => ?_, fun _ _ _ _ _ _ _ _ => trivial⟩
  simp only [JFields.enc, Option.some.injEq] at h
  subst h
  simp

theorem sayF_skip {n : Nat} {α β : Type} {z : α} {F : JFields β} (h : SayF n F) : SayF n (.skip z F) := by
  intro P hP
  obtain ⟨K, hz, ho, hs⟩ := h P hP
  refine ⟨fun b => K b.2, hz, fun b ms => ho b.2 ms, ?_⟩
  intro k j b b' hj ha hk hd
  simp only [JFields.set, Option.map_eq_some_iff] at hd
  obtain ⟨c, hd, rfl⟩ := hd
  exact hs k j b.2 c hj ha hk hd

theorem sayF_field {n : Nat} {α β : Type} {k : String} {oe : Bool} {c : JCodec α} {F : JFields β} (hc : SayC n c)
    (h : SayF n F) : SayF n (.field k oe c F) := by
  intro P hP
  obtain ⟨I, iz, io, is⟩ := hc (P.below k) (hP.below k)
  obtain ⟨K, kz, ko, ks⟩ := h P hP
  refine ⟨fun b => I b.1 ∧ K b.2, ⟨iz, kz⟩, ?_, ?_⟩
  · intro b ms hk he
    simp only [JFields.enc] at he
    by_cases h2 : (oe && c.empty b.1) = true
    · rw [if_pos h2] at he
      exact ko b.2 ms hk.2 he
    · rw [if_neg h2] at he
      cases hc : c.enc b.1 with
      | none => simp [hc] at he
      | some j =>
        simp only [hc, Option.map_eq_some_iff] at he
        obtain ⟨ms', hm, rfl⟩ := he
        intro m hm'
        cases hm' with
        | head => exact io _ hk.1 j hc
        | tail _ hm' => exact ko b.2 ms' hk.2 hm m hm'
  · intro l j b b' hj ha hk hd
    simp only [JFields.set] at hd
    by_cases e : foldKey l = foldKey k
    · simp only [e, if_true, Option.map_eq_some_iff] at hd
      obtain ⟨x, hd, rfl⟩ := hd
      exact ⟨is j _ x hj (below_congr e ▸ ha) hk.1 hd, hk.2⟩
    · simp only [e, if_false, Option.map_eq_some_iff] at hd
      obtain ⟨x, hd, rfl⟩ := hd
      exact ⟨hk.1, ks l j _ x hj ha hk.2 hd⟩

theorem say_decMembers {n : Nat} {P : Words} {β : Type} {F : JFields β} {K : β → Prop}
    (ks : ∀ k j b b', j.depth < n → All (P.below k) j → K b → F.set k j b = some b' → K b') :
    ∀ (ms : List (String × Json)) (b b' : β), Json.depthM ms < n → All P (.obj ms) → K b →
      F.decMembers ms b = some b' → K b'
  | [], b, b', _, _, hk, hd => by
    simp only [JFields.decMembers, Option.some.injEq] at hd
    exact hd ▸ hk
  | m :: ms, b, b', hn, ha, hk, hd => by
    rw [decMembers_cons] at hd
    cases he : F.set m.1 m.2 b with
    | none => simp [he] at hd
    | some c =>
      rw [he, Option.bind_some] at hd
      have hm := depth_member (m := m) (ms := m :: ms) List.mem_cons_self
      have h2 : Json.depthM ms ≤ Json.depthM (m :: ms) := by simp only [Json.depthM]; omega
      rw [all_obj] at ha
      exact say_decMembers ks ms c b' (by omega) (all_obj.2 fun i hi => ha i (List.mem_cons_of_mem _ hi))
        (ks _ _ _ _ (by omega) (ha m List.mem_cons_self) hk he) hd

theorem say_struct' {n : Nat} {σ β : Type} {F : JFields β} {toP : σ → β} {ofP : β → σ} (hP : ∀ b, toP (ofP b) = b)
    (h : SayF n F) : SayC (n + 1) (JCodec.struct F toP ofP) := by
  intro P hl
  obtain ⟨K, kz, ko, ks⟩ := h P hl
  refine ⟨fun x => K (toP x), by simpa only [JCodec.struct, hP] using kz, fun x hx j hj => ?_, fun j x y hj ha hx hd => ?_⟩
  · simp only [JCodec.struct, Option.map_eq_some_iff] at hj
    obtain ⟨ms, hm, rfl⟩ := hj
    exact all_obj.2 (ko _ ms hx hm)
  · cases j <;> simp only [JCodec.struct, Option.some.injEq, reduceCtorEq, Option.map_eq_some_iff] at hd
    · exact hd ▸ hx
    · rename_i ms
      obtain ⟨b, hd, rfl⟩ := hd
      have hj : Json.depthM ms + 1 < n + 1 := hj
      rw [hP]
      exact say_decMembers ks ms _ b (by omega) ha hx hd

theorem say_struct {n : Nat} {σ β : Type} {F : JFields β} {toP : σ → β} {ofP : β → σ} (hP : ∀ b, toP (ofP b) = b)
    (h : SayF n F) : SayC n (JCodec.struct F toP ofP) := (say_struct' hP h).mono (Nat.le_succ n)

theorem say_int {n : Nat} : SayC n JCodec.int :=
  say_mute fun x j h => ⟨_, (by simpa only [JCodec.int, Option.some.injEq, eq_comm] using h)⟩
theorem say_f32 {n : Nat} : SayC n JCodec.f32 := say_mute fun x j h => by
  simp only [JCodec.f32, Option.map_eq_some_iff] at h
  obtain ⟨l, _, rfl⟩ := h
  exact ⟨l, rfl⟩
theorem say_f64 {n : Nat} : SayC n JCodec.f64 := say_mute fun x j h => by
  simp only [JCodec.f64, Option.map_eq_some_iff] at h
  obtain ⟨l, _, rfl⟩ := h
  exact ⟨l, rfl⟩

theorem say_bomReference {n : Nat} : SayC n J.bomReference := by
  intro P hP
  refine ⟨fun s => P [] (.str s.val), hP _ _ rfl, fun s h j hj => ?_, fun j x y _ hj hx hd => ?_⟩
  · simp only [J.bomReference, Option.some.injEq] at hj
    subst hj
    exact all_str.2 h
  · cases j <;> simp only [J.bomReference, Option.some.injEq, reduceCtorEq] at hd
    · exact hd ▸ hx
    · exact hd ▸ all_str.1 hj

/-- A member that is looked at says what it says. -/
theorem peek_words {P : Words} (hP : P.Lax) {k s : String} {j : Json} (h : All P j) (hd : (J.peek k).dec j "" = some s) :
    P.below k [] (.str s) := by
  obtain ⟨I, hz, ho, hs⟩ := say_struct (n := j.depth + 1) (F := .field k false JCodec.string .nil) (toP := fun s : String => (s, ()))
    (ofP := fun p => p.1) (fun _ => rfl) (sayF_field say_string sayF_nil) P hP
  have := ho s (hs j _ s (Nat.lt_succ_self _) h hz hd) (.obj [(k, .str s)]) rfl
  rw [all_obj] at this
  exact all_str.1 (this _ List.mem_cons_self)

/-- The five types that are a reference or a struct without it. -/
theorem say_ike {n : Nat} {σ β : Type} {F : JFields β} {toP : σ → BOMReference × β} {ofP : BOMReference × β → σ}
    {get : σ → BOMReference} {put : σ → BOMReference → σ} (hP : ∀ b, toP (ofP b) = b) (hg : ∀ v, get v = (toP v).1)
    (hp : ∀ v r, toP (put v r) = (r, (toP v).2)) (h : SayF n F) :
    SayC n (J.ikev2 (JCodec.struct (.skip ⟨""⟩ F) toP ofP) get put) := by
  intro P hl
  obtain ⟨K, kz, ko, ks⟩ := h P hl
  refine ⟨fun x => P [] (.str (toP x).1.val) ∧ K (toP x).2, ?_, fun x hx j hj => ?_, fun j x y hj ha hx hd => ?_⟩
  · simp only [J.ikev2, JCodec.struct, hP, JFields.zero]
    exact ⟨hl _ _ rfl, kz⟩
  · simp only [J.ikev2] at hj
    split at hj
    · simp only [Option.some.injEq] at hj
      subst hj
      rw [hg]
      exact all_str.2 hx.1
    · simp only [JCodec.struct, Option.map_eq_some_iff, JFields.enc] at hj
      obtain ⟨ms, hm, rfl⟩ := hj
      exact all_obj.2 (ko _ ms hx.2 hm)
  · cases j <;> simp only [J.ikev2, JCodec.struct, Option.some.injEq, reduceCtorEq, Option.map_eq_some_iff] at hd
    · exact hd ▸ hx
    · subst hd
      rw [hp]
      exact ⟨all_str.1 ha, hx.2⟩
    · rename_i ms
      obtain ⟨b, hd, rfl⟩ := hd
      have hj : Json.depthM ms + 1 < n := hj
      rw [hP]
      refine say_decMembers (n := n) (P := P) (K := fun b : BOMReference × β => P [] (.str b.1.val) ∧ K b.2) ?_ ms _ b (by omega) ha hx hd
      intro k j b b' hj ha hk hd
      simp only [JFields.set, Option.map_eq_some_iff] at hd
      obtain ⟨c, hd, rfl⟩ := hd
      exact ⟨hk.1, ks k j b.2 c hj ha hk.2 hd⟩

theorem rawMember_words {P : Words} {k : String} {j : Json} {ms : List (String × Json)} (h : All P (.obj ms))
    (hr : J.rawMember k ms = some j) : All (P.below k) j ∧ j.depth ≤ Json.depthM ms := by
  have hm : j ∈ selected k ms := by
    unfold J.rawMember at hr
    split at hr
    · cases hr
    · exact List.mem_of_getLast? hr
  simp only [selected, List.mem_map, List.mem_filter, decide_eq_true_eq] at hm
  obtain ⟨m, ⟨hm, hk⟩, rfl⟩ := hm
  exact ⟨below_congr hk ▸ all_obj.1 h m hm, depth_member hm⟩



theorem say_advisory (n : Nat) : SayC n J.advisory :=
  say_struct (fun _ => rfl) (
    sayF_field (say_string) <|
    sayF_field (say_string) <|
    sayF_nil)

theorem say_affectedVersions (n : Nat) : SayC n J.affectedVersions :=
  say_struct (fun _ => rfl) (
    sayF_field (say_string) <|
    sayF_field (say_string) <|
    sayF_field (say_string) <|
    sayF_nil)

theorem say_affects (n : Nat) : SayC n J.affects :=
  say_struct (fun _ => rfl) (
    sayF_field (say_string) <|
    sayF_field (say_list (say_affectedVersions n)) <|
    sayF_nil)

theorem say_attachedText (n : Nat) : SayC n J.attachedText :=
  say_struct (fun _ => rfl) (
    sayF_field (say_string) <|
    sayF_field (say_string) <|
    sayF_field (say_string) <|
    sayF_nil)

theorem say_property (n : Nat) : SayC n J.property :=
  say_struct (fun _ => rfl) (
    sayF_field (say_string) <|
    sayF_field (say_string) <|
    sayF_nil)

theorem say_componentDataContents (n : Nat) : SayC n J.componentDataContents :=
  say_struct (fun _ => rfl) (
    sayF_field (say_option (say_attachedText n)) <|
    sayF_field (say_string) <|
    sayF_field (say_list (say_property n)) <|
    sayF_nil)

theorem say_componentDataGraphic (n : Nat) : SayC n J.componentDataGraphic :=
  say_struct (fun _ => rfl) (
    sayF_field (say_string) <|
    sayF_field (say_option (say_attachedText n)) <|
    sayF_nil)

theorem say_componentDataGraphics (n : Nat) : SayC n J.componentDataGraphics :=
  say_struct (fun _ => rfl) (
    sayF_field (say_string) <|
    sayF_field (say_list (say_componentDataGraphic n)) <|
    sayF_nil)

theorem say_organizationalContact (n : Nat) : SayC n J.organizationalContact :=
  say_struct (fun _ => rfl) (
    sayF_field (say_string) <|
    sayF_field (say_string) <|
    sayF_field (say_string) <|
    sayF_field (say_string) <|
    sayF_nil)

theorem say_postalAddress (n : Nat) : SayC n J.postalAddress :=
  say_struct (fun _ => rfl) (
    sayF_field (say_string) <|
    sayF_field (say_string) <|
    sayF_field (say_string) <|
    sayF_field (say_string) <|
    sayF_field (say_string) <|
    sayF_field (say_string) <|
    sayF_field (say_string) <|
    sayF_nil)

theorem say_organizationalEntity (n : Nat) : SayC n J.organizationalEntity :=
  say_struct (fun _ => rfl) (
    sayF_field (say_string) <|
    sayF_field (say_string) <|
    sayF_field (say_option (say_postalAddress n)) <|
    sayF_field (say_list (say_string)) <|
    sayF_field (say_list (say_organizationalContact n)) <|
    sayF_nil)

theorem say_componentDataGovernanceResponsibleParty (n : Nat) : SayC n J.componentDataGovernanceResponsibleParty :=
  say_struct (fun _ => rfl) (
    sayF_field (say_option (say_organizationalEntity n)) <|
    sayF_field (say_option (say_organizationalContact n)) <|
    sayF_nil)

theorem say_dataGovernance (n : Nat) : SayC n J.dataGovernance :=
  say_struct (fun _ => rfl) (
    sayF_field (say_list (say_componentDataGovernanceResponsibleParty n)) <|
    sayF_field (say_list (say_componentDataGovernanceResponsibleParty n)) <|
    sayF_field (say_list (say_componentDataGovernanceResponsibleParty n)) <|
    sayF_nil)

theorem say_componentData (n : Nat) : SayC n J.componentData :=
  say_struct (fun _ => rfl) (
    sayF_field (say_string) <|
    sayF_field (say_string) <|
    sayF_field (say_string) <|
    sayF_field (say_option (say_componentDataContents n)) <|
    sayF_field (say_string) <|
    sayF_field (say_list (say_string)) <|
    sayF_field (say_option (say_componentDataGraphics n)) <|
    sayF_field (say_string) <|
    sayF_field (say_option (say_dataGovernance n)) <|
    sayF_nil)

theorem say_hash (n : Nat) : SayC n J.hash :=
  say_struct (fun _ => rfl) (
    sayF_field (say_string) <|
    sayF_field (say_string) <|
    sayF_nil)

theorem say_relatedCryptographicAsset (n : Nat) : SayC n J.relatedCryptographicAsset :=
  say_struct (fun _ => rfl) (
    sayF_field (say_string) <|
    sayF_field (say_string) <|
    sayF_nil)

theorem say_predefinedCertificateState (n : Nat) : SayC n J.predefinedCertificateState :=
  say_struct (fun _ => rfl) (
    sayF_field (say_string) <|
    sayF_field (say_string) <|
    sayF_nil)

theorem say_customCertificateState (n : Nat) : SayC n J.customCertificateState :=
  say_struct (fun _ => rfl) (
    sayF_field (say_string) <|
    sayF_field (say_string) <|
    sayF_field (say_string) <|
    sayF_nil)

theorem say_certificateState (n : Nat) : SayC n J.certificateState := by
  intro P hP
  obtain ⟨I, hz, ho, hs⟩ := say_predefinedCertificateState n P hP
  obtain ⟨L, lz, lo, ls⟩ := say_customCertificateState n P hP
  refine ⟨fun x => (∀ i ∈ x.predefined, I i) ∧ ∀ i ∈ x.custom, L i,
    ⟨nofun, nofun⟩, ?_, ?_⟩
  · rintro ⟨a, b⟩ ⟨h1, h2⟩ j hj
    cases a <;> cases b <;> simp only [J.certificateState, Option.some.injEq, reduceCtorEq] at hj
    · subst hj; exact all_obj.2 (by simp)
    · exact lo _ (h2 _ rfl) j hj
    · exact ho _ (h1 _ rfl) j hj
  · rintro j x y hj ha ⟨h1, h2⟩ hd
    simp only [J.certificateState] at hd
    split at hd
    · cases hd
    · split at hd <;> split at hd
      · cases hd
      · rename_i he
        simp only [Option.some.injEq] at hd
        subst hd
        exact ⟨fun q hq => by cases hq; exact hs _ _ _ hj ha hz he, h2⟩
      · cases hd
      · rename_i he
        simp only [Option.some.injEq] at hd
        subst hd
        exact ⟨h1, fun q hq => by cases hq; exact ls _ _ _ hj ha lz he⟩


theorem say_commonCertificateExtension (n : Nat) : SayC n J.commonCertificateExtension :=
  say_struct (fun _ => rfl) (
    sayF_field (say_string) <|
    sayF_field (say_string) <|
    sayF_nil)

theorem say_customCertificateExtension (n : Nat) : SayC n J.customCertificateExtension :=
  say_struct (fun _ => rfl) (
    sayF_field (say_string) <|
    sayF_field (say_string) <|
    sayF_nil)

theorem say_certificateExtension (n : Nat) : SayC n J.certificateExtension := by
  intro P hP
  obtain ⟨I, hz, ho, hs⟩ := say_commonCertificateExtension n P hP
  obtain ⟨L, lz, lo, ls⟩ := say_customCertificateExtension n P hP
  refine ⟨fun x => (∀ i ∈ x.common, I i) ∧ ∀ i ∈ x.custom, L i,
    ⟨nofun, nofun⟩, ?_, ?_⟩
  · rintro ⟨a, b⟩ ⟨h1, h2⟩ j hj
    cases a <;> cases b <;> simp only [J.certificateExtension, Option.some.injEq, reduceCtorEq] at hj
    · subst hj; exact all_obj.2 (by simp)
    · exact lo _ (h2 _ rfl) j hj
    · exact ho _ (h1 _ rfl) j hj
  · rintro j x y hj ha ⟨h1, h2⟩ hd
    simp only [J.certificateExtension] at hd
    split at hd
    · cases hd
    · split at hd <;> split at hd
      · cases hd
      · rename_i he
        simp only [Option.some.injEq] at hd
        subst hd
        exact ⟨fun q hq => by cases hq; exact hs _ _ _ hj ha hz he, h2⟩
      · cases hd
      · rename_i he
        simp only [Option.some.injEq] at hd
        subst hd
        exact ⟨h1, fun q hq => by cases hq; exact ls _ _ _ hj ha lz he⟩


theorem say_certificateProperties (n : Nat) : SayC n J.certificateProperties :=
  say_struct (fun _ => rfl) (
    sayF_field (say_string) <|
    sayF_field (say_string) <|
    sayF_field (say_string) <|
    sayF_field (say_string) <|
    sayF_field (say_string) <|
    sayF_field (say_bomReference) <|
    sayF_field (say_bomReference) <|
    sayF_field (say_string) <|
    sayF_field (say_string) <|
    sayF_field (say_string) <|
    sayF_field (say_option (say_hash n)) <|
    sayF_field (say_list (say_certificateState n)) <|
    sayF_field (say_list (say_certificateExtension n)) <|
    sayF_field (say_list (say_relatedCryptographicAsset n)) <|
    sayF_field (say_string) <|
    sayF_field (say_string) <|
    sayF_field (say_string) <|
    sayF_field (say_string) <|
    sayF_field (say_string) <|
    sayF_nil)

theorem say_cryptoAlgorithmProperties (n : Nat) : SayC n J.cryptoAlgorithmProperties :=
  say_struct (fun _ => rfl) (
    sayF_field (say_string) <|
    sayF_field (say_string) <|
    sayF_field (say_string) <|
    sayF_field (say_string) <|
    sayF_field (say_string) <|
    sayF_field (say_string) <|
    sayF_field (say_string) <|
    sayF_field (say_list (say_string)) <|
    sayF_field (say_string) <|
    sayF_field (say_string) <|
    sayF_field (say_list (say_string)) <|
    sayF_field (say_option (say_int)) <|
    sayF_field (say_option (say_int)) <|
    sayF_nil)

theorem say_cipherSuite (n : Nat) : SayC n J.cipherSuite :=
  say_struct (fun _ => rfl) (
    sayF_field (say_string) <|
    sayF_field (say_list (say_bomReference)) <|
    sayF_field (say_list (say_string)) <|
    sayF_field (say_list (say_string)) <|
    sayF_field (say_list (say_string)) <|
    sayF_nil)

theorem say_ikev2Auth (n : Nat) : SayC n J.ikev2Auth :=
  say_ike (fun _ => rfl) (fun _ => rfl) (fun _ _ => rfl) (
    sayF_field (say_string) <|
    sayF_field (say_string) <|
    sayF_nil)

theorem say_ikev2Enc (n : Nat) : SayC n J.ikev2Enc :=
  say_ike (fun _ => rfl) (fun _ => rfl) (fun _ _ => rfl) (
    sayF_field (say_string) <|
    sayF_field (say_option (say_int)) <|
    sayF_field (say_string) <|
    sayF_nil)

theorem say_ikev2Integ (n : Nat) : SayC n J.ikev2Integ :=
  say_ike (fun _ => rfl) (fun _ => rfl) (fun _ _ => rfl) (
    sayF_field (say_string) <|
    sayF_field (say_string) <|
    sayF_nil)

theorem say_ikev2Ke (n : Nat) : SayC n J.ikev2Ke :=
  say_ike (fun _ => rfl) (fun _ => rfl) (fun _ _ => rfl) (
    sayF_field (say_option (say_int)) <|
    sayF_field (say_string) <|
    sayF_nil)

theorem say_ikev2Prf (n : Nat) : SayC n J.ikev2Prf :=
  say_ike (fun _ => rfl) (fun _ => rfl) (fun _ _ => rfl) (
    sayF_field (say_string) <|
    sayF_field (say_string) <|
    sayF_nil)

theorem say_ikev2TransformTypes (n : Nat) : SayC n J.ikev2TransformTypes :=
  say_struct (fun _ => rfl) (
    sayF_field (say_list (say_ikev2Enc n)) <|
    sayF_field (say_list (say_ikev2Prf n)) <|
    sayF_field (say_list (say_ikev2Integ n)) <|
    sayF_field (say_list (say_ikev2Ke n)) <|
    sayF_field (say_bool) <|
    sayF_field (say_list (say_ikev2Auth n)) <|
    sayF_nil)

theorem say_cryptoProtocolProperties (n : Nat) : SayC n J.cryptoProtocolProperties :=
  say_struct (fun _ => rfl) (
    sayF_field (say_string) <|
    sayF_field (say_string) <|
    sayF_field (say_list (say_cipherSuite n)) <|
    sayF_field (say_option (say_ikev2TransformTypes n)) <|
    sayF_field (say_list (say_bomReference)) <|
    sayF_field (say_list (say_relatedCryptographicAsset n)) <|
    sayF_nil)

theorem say_securedBy (n : Nat) : SayC n J.securedBy :=
  say_struct (fun _ => rfl) (
    sayF_field (say_string) <|
    sayF_field (say_bomReference) <|
    sayF_nil)

theorem say_relatedCryptoMaterialProperties (n : Nat) : SayC n J.relatedCryptoMaterialProperties :=
  say_struct (fun _ => rfl) (
    sayF_field (say_string) <|
    sayF_field (say_string) <|
    sayF_field (say_string) <|
    sayF_field (say_bomReference) <|
    sayF_field (say_string) <|
    sayF_field (say_string) <|
    sayF_field (say_string) <|
    sayF_field (say_string) <|
    sayF_field (say_string) <|
    sayF_field (say_option (say_int)) <|
    sayF_field (say_string) <|
    sayF_field (say_option (say_securedBy n)) <|
    sayF_field (say_option (say_hash n)) <|
    sayF_field (say_list (say_relatedCryptographicAsset n)) <|
    sayF_nil)

theorem say_cryptoProperties (n : Nat) : SayC n J.cryptoProperties :=
  say_struct (fun _ => rfl) (
    sayF_field (say_string) <|
    sayF_field (say_option (say_cryptoAlgorithmProperties n)) <|
    sayF_field (say_option (say_certificateProperties n)) <|
    sayF_field (say_option (say_relatedCryptoMaterialProperties n)) <|
    sayF_field (say_option (say_cryptoProtocolProperties n)) <|
    sayF_field (say_string) <|
    sayF_nil)

theorem say_callstackFrame (n : Nat) : SayC n J.callstackFrame :=
  say_struct (fun _ => rfl) (
    sayF_field (say_string) <|
    sayF_field (say_string) <|
    sayF_field (say_string) <|
    sayF_field (say_list (say_string)) <|
    sayF_field (say_option (say_int)) <|
    sayF_field (say_option (say_int)) <|
    sayF_field (say_string) <|
    sayF_nil)

theorem say_callstack (n : Nat) : SayC n J.callstack :=
  say_struct (fun _ => rfl) (
    sayF_field (say_list (say_callstackFrame n)) <|
    sayF_nil)

theorem say_copyright (n : Nat) : SayC n J.copyright :=
  say_struct (fun _ => rfl) (
    sayF_field (say_string) <|
    sayF_nil)

theorem say_evidenceIdentityMethod (n : Nat) : SayC n J.evidenceIdentityMethod :=
  say_struct (fun _ => rfl) (
    sayF_field (say_string) <|
    sayF_field (say_option (say_f32)) <|
    sayF_field (say_string) <|
    sayF_nil)

theorem say_evidenceIdentity (n : Nat) : SayC n J.evidenceIdentity :=
  say_struct (fun _ => rfl) (
    sayF_field (say_string) <|
    sayF_field (say_option (say_f32)) <|
    sayF_field (say_string) <|
    sayF_field (say_list (say_evidenceIdentityMethod n)) <|
    sayF_field (say_list (say_bomReference)) <|
    sayF_nil)

theorem say_evidenceIdentityChoice (n : Nat) : SayC n J.evidenceIdentityChoice := by
  intro P hP
  obtain ⟨I, hz, ho, hs⟩ := say_evidenceIdentity n P hP
  obtain ⟨L, lz, lo, ls⟩ := say_list (say_evidenceIdentity n) P hP
  refine ⟨fun x => (∀ i ∈ x.identity, I i) ∧ L x.identities, ⟨nofun, lz⟩, ?_, ?_⟩
  · rintro x ⟨h1, h2⟩ j hj
    simp only [J.evidenceIdentityChoice] at hj
    split at hj
    · rename_i i hi
      split at hj
      · cases hj
      · exact ho i (h1 i hi) j hj
    · split at hj
      · exact lo _ h2 j hj
      · simp only [Option.some.injEq] at hj
        subst hj
        exact all_null
  · rintro j x y hj ha ⟨h1, h2⟩ hd
    simp only [J.evidenceIdentityChoice] at hd
    split at hd <;> split at hd
    · cases hd
    · rename_i he
      simp only [Option.some.injEq] at hd
      subst hd
      exact ⟨h1, ls _ _ _ hj ha lz he⟩
    · cases hd
    · rename_i he
      simp only [Option.some.injEq] at hd
      subst hd
      exact ⟨fun q hq => by cases hq; exact hs _ _ _ hj ha hz he, h2⟩


theorem say_evidenceOccurrence (n : Nat) : SayC n J.evidenceOccurrence :=
  say_struct (fun _ => rfl) (
    sayF_field (say_string) <|
    sayF_field (say_string) <|
    sayF_field (say_option (say_int)) <|
    sayF_field (say_option (say_int)) <|
    sayF_field (say_string) <|
    sayF_field (say_string) <|
    sayF_nil)

theorem say_organizationalEntityOrContact (n : Nat) : SayC n J.organizationalEntityOrContact :=
  say_struct (fun _ => rfl) (
    sayF_field (say_option (say_organizationalEntity n)) <|
    sayF_field (say_option (say_organizationalContact n)) <|
    sayF_nil)

theorem say_licensing (n : Nat) : SayC n J.licensing :=
  say_struct (fun _ => rfl) (
    sayF_field (say_list (say_string)) <|
    sayF_field (say_option (say_organizationalEntityOrContact n)) <|
    sayF_field (say_option (say_organizationalEntityOrContact n)) <|
    sayF_field (say_option (say_organizationalEntityOrContact n)) <|
    sayF_field (say_string) <|
    sayF_field (say_list (say_string)) <|
    sayF_field (say_string) <|
    sayF_field (say_string) <|
    sayF_nil)

theorem say_license (n : Nat) : SayC n J.license := by
  intro P hP
  have h : SayC n J.licenseAlias := say_struct (fun _ => rfl) (
    sayF_field (say_string) <|
    sayF_field (say_string) <|
    sayF_field (say_string) <|
    sayF_field (say_string) <|
    sayF_field (say_option (say_attachedText n)) <|
    sayF_field (say_string) <|
    sayF_field (say_option (say_licensing n)) <|
    sayF_field (say_list (say_property n)) <|
    sayF_nil)
  obtain ⟨I, hz, ho, hs⟩ := h P hP
  refine ⟨I, hz, fun x hx j hj => ho x hx j ?_, hs⟩
  simp only [J.license] at hj
  split at hj
  · cases hj
  · split at hj
    · cases hj
    · exact hj


theorem say_licenseExpressionDetail (n : Nat) : SayC n J.licenseExpressionDetail :=
  say_struct (fun _ => rfl) (
    sayF_field (say_string) <|
    sayF_field (say_string) <|
    sayF_field (say_option (say_attachedText n)) <|
    sayF_field (say_string) <|
    sayF_nil)

theorem say_licenseChoice (n : Nat) : SayC n J.licenseChoice :=
  say_struct (fun _ => rfl) (
    sayF_field (say_option (say_license n)) <|
    sayF_field (say_string) <|
    sayF_field (say_list (say_licenseExpressionDetail n)) <|
    sayF_field (say_option (say_string)) <|
    sayF_field (say_string) <|
    sayF_field (say_option (say_licensing n)) <|
    sayF_field (say_list (say_property n)) <|
    sayF_nil)

theorem say_evidence (n : Nat) : SayC n J.evidence :=
  say_struct (fun _ => rfl) (
    sayF_field (say_option (say_evidenceIdentityChoice n)) <|
    sayF_field (say_list (say_evidenceOccurrence n)) <|
    sayF_field (say_option (say_callstack n)) <|
    sayF_field (say_list (say_licenseChoice n)) <|
    sayF_field (say_list (say_copyright n)) <|
    sayF_nil)

theorem say_externalReference (n : Nat) : SayC n J.externalReference :=
  say_struct (fun _ => rfl) (
    sayF_field (say_string) <|
    sayF_field (say_string) <|
    sayF_field (say_list (say_hash n)) <|
    sayF_field (say_string) <|
    sayF_field (say_list (say_property n)) <|
    sayF_nil)

theorem say_jsfPublicKey (n : Nat) : SayC n J.jsfPublicKey :=
  say_struct (fun _ => rfl) (
    sayF_field (say_string) <|
    sayF_field (say_string) <|
    sayF_field (say_string) <|
    sayF_field (say_string) <|
    sayF_field (say_string) <|
    sayF_field (say_string) <|
    sayF_nil)

theorem say_jsfSigner (n : Nat) : SayC n J.jsfSigner :=
  say_struct (fun _ => rfl) (
    sayF_field (say_string) <|
    sayF_field (say_string) <|
    sayF_field (say_jsfPublicKey n) <|
    sayF_field (say_list (say_string)) <|
    sayF_field (say_list (say_string)) <|
    sayF_field (say_string) <|
    sayF_nil)

theorem say_jsfSignature (n : Nat) : SayC n J.jsfSignature :=
  say_struct (fun _ => rfl) (
    sayF_skip <|
    sayF_field (say_list (say_jsfSigner n)) <|
    sayF_field (say_list (say_jsfSigner n)) <|
    sayF_nil)

theorem say_mlModelCO2Measure (n : Nat) : SayC n J.mlModelCO2Measure :=
  say_struct (fun _ => rfl) (
    sayF_field (say_f32) <|
    sayF_field (say_string) <|
    sayF_nil)

theorem say_mlModelEnergyMeasure (n : Nat) : SayC n J.mlModelEnergyMeasure :=
  say_struct (fun _ => rfl) (
    sayF_field (say_f32) <|
    sayF_field (say_string) <|
    sayF_nil)

theorem say_mlModelEnergyProvider (n : Nat) : SayC n J.mlModelEnergyProvider :=
  say_struct (fun _ => rfl) (
    sayF_field (say_string) <|
    sayF_field (say_string) <|
    sayF_field (say_option (say_organizationalEntity n)) <|
    sayF_field (say_string) <|
    sayF_field (say_option (say_mlModelEnergyMeasure n)) <|
    sayF_field (say_list (say_externalReference n)) <|
    sayF_nil)

theorem say_mlModelEnergyConsumption (n : Nat) : SayC n J.mlModelEnergyConsumption :=
  say_struct (fun _ => rfl) (
    sayF_field (say_string) <|
    sayF_field (say_list (say_mlModelEnergyProvider n)) <|
    sayF_field (say_mlModelEnergyMeasure n) <|
    sayF_field (say_option (say_mlModelCO2Measure n)) <|
    sayF_field (say_option (say_mlModelCO2Measure n)) <|
    sayF_field (say_list (say_property n)) <|
    sayF_nil)

theorem say_mlModelCardEnvironmentalConsiderations (n : Nat) : SayC n J.mlModelCardEnvironmentalConsiderations :=
  say_struct (fun _ => rfl) (
    sayF_field (say_list (say_mlModelEnergyConsumption n)) <|
    sayF_field (say_list (say_property n)) <|
    sayF_nil)

theorem say_mlModelCardEthicalConsideration (n : Nat) : SayC n J.mlModelCardEthicalConsideration :=
  say_struct (fun _ => rfl) (
    sayF_field (say_string) <|
    sayF_field (say_string) <|
    sayF_nil)

theorem say_mlModelCardFairnessAssessment (n : Nat) : SayC n J.mlModelCardFairnessAssessment :=
  say_struct (fun _ => rfl) (
    sayF_field (say_string) <|
    sayF_field (say_string) <|
    sayF_field (say_string) <|
    sayF_field (say_string) <|
    sayF_nil)

theorem say_mlModelCardConsiderations (n : Nat) : SayC n J.mlModelCardConsiderations :=
  say_struct (fun _ => rfl) (
    sayF_field (say_list (say_string)) <|
    sayF_field (say_list (say_string)) <|
    sayF_field (say_list (say_string)) <|
    sayF_field (say_list (say_string)) <|
    sayF_field (say_list (say_mlModelCardEthicalConsideration n)) <|
    sayF_field (say_option (say_mlModelCardEnvironmentalConsiderations n)) <|
    sayF_field (say_list (say_mlModelCardFairnessAssessment n)) <|
    sayF_nil)

theorem say_mlDatasetChoice (n : Nat) : SayC n J.mlDatasetChoice := by
  intro P hP
  obtain ⟨I, hz, ho, hs⟩ := say_componentData n P hP
  refine ⟨fun x => P.below "ref" [] (.str x.ref) ∧ ∀ d ∈ x.componentData, I d,
    ⟨hP.below _ _ _ rfl, by intro p hp; cases hp⟩, ?_, ?_⟩
  · rintro x ⟨h1, h2⟩ j hj
    simp only [J.mlDatasetChoice] at hj
    split at hj
    · simp only [Option.some.injEq] at hj
      subst hj
      refine all_obj.2 fun m hm => ?_
      simp only [List.mem_singleton] at hm
      subst hm
      exact all_str.2 h1
    · split at hj
      · rename_i d hd
        exact ho d (h2 d hd) j hj
      · simp only [Option.some.injEq] at hj
        subst hj
        exact all_obj.2 (by simp)
  · rintro j x y hj ha ⟨h1, h2⟩ hd
    simp only [J.mlDatasetChoice] at hd
    split at hd
    · cases hd
    · rename_i r hr
      split at hd
      · simp only [Option.some.injEq] at hd
        subst hd
        exact ⟨peek_words hP ha hr, h2⟩
      · split at hd
        · cases hd
        · rename_i d he
          split at hd <;> simp only [Option.some.injEq] at hd <;> subst hd
          · exact ⟨h1, fun q hq => by cases hq; exact hs _ _ _ hj ha hz he⟩
          · exact ⟨h1, h2⟩


theorem say_mlInputOutputParameters (n : Nat) : SayC n J.mlInputOutputParameters :=
  say_struct (fun _ => rfl) (
    sayF_field (say_string) <|
    sayF_nil)

theorem say_mlModelParametersApproach (n : Nat) : SayC n J.mlModelParametersApproach :=
  say_struct (fun _ => rfl) (
    sayF_field (say_string) <|
    sayF_nil)

theorem say_mlModelParameters (n : Nat) : SayC n J.mlModelParameters :=
  say_struct (fun _ => rfl) (
    sayF_field (say_option (say_mlModelParametersApproach n)) <|
    sayF_field (say_string) <|
    sayF_field (say_string) <|
    sayF_field (say_string) <|
    sayF_field (say_list (say_mlDatasetChoice n)) <|
    sayF_field (say_list (say_mlInputOutputParameters n)) <|
    sayF_field (say_list (say_mlInputOutputParameters n)) <|
    sayF_nil)

theorem say_mlPerformanceMetricConfidenceInterval (n : Nat) : SayC n J.mlPerformanceMetricConfidenceInterval :=
  say_struct (fun _ => rfl) (
    sayF_field (say_string) <|
    sayF_field (say_string) <|
    sayF_nil)

theorem say_mlPerformanceMetric (n : Nat) : SayC n J.mlPerformanceMetric :=
  say_struct (fun _ => rfl) (
    sayF_field (say_string) <|
    sayF_field (say_string) <|
    sayF_field (say_string) <|
    sayF_field (say_option (say_mlPerformanceMetricConfidenceInterval n)) <|
    sayF_nil)

theorem say_mlQuantitativeAnalysis (n : Nat) : SayC n J.mlQuantitativeAnalysis :=
  say_struct (fun _ => rfl) (
    sayF_field (say_list (say_mlPerformanceMetric n)) <|
    sayF_field (say_option (say_componentDataGraphics n)) <|
    sayF_nil)

theorem say_mlModelCard (n : Nat) : SayC n J.mlModelCard :=
  say_struct (fun _ => rfl) (
    sayF_field (say_string) <|
    sayF_field (say_option (say_mlModelParameters n)) <|
    sayF_field (say_option (say_mlQuantitativeAnalysis n)) <|
    sayF_field (say_option (say_mlModelCardConsiderations n)) <|
    sayF_nil)

theorem say_identifiableAction (n : Nat) : SayC n J.identifiableAction :=
  say_struct (fun _ => rfl) (
    sayF_field (say_string) <|
    sayF_field (say_string) <|
    sayF_field (say_string) <|
    sayF_nil)

theorem say_commit (n : Nat) : SayC n J.commit :=
  say_struct (fun _ => rfl) (
    sayF_field (say_string) <|
    sayF_field (say_string) <|
    sayF_field (say_option (say_identifiableAction n)) <|
    sayF_field (say_option (say_identifiableAction n)) <|
    sayF_field (say_string) <|
    sayF_nil)

theorem say_diff (n : Nat) : SayC n J.diff :=
  say_struct (fun _ => rfl) (
    sayF_field (say_option (say_attachedText n)) <|
    sayF_field (say_string) <|
    sayF_nil)

theorem say_source (n : Nat) : SayC n J.source :=
  say_struct (fun _ => rfl) (
    sayF_field (say_string) <|
    sayF_field (say_string) <|
    sayF_nil)

theorem say_issue (n : Nat) : SayC n J.issue :=
  say_struct (fun _ => rfl) (
    sayF_field (say_string) <|
    sayF_field (say_string) <|
    sayF_field (say_string) <|
    sayF_field (say_option (say_source n)) <|
    sayF_field (say_list (say_string)) <|
    sayF_field (say_string) <|
    sayF_nil)

theorem say_patch (n : Nat) : SayC n J.patch :=
  say_struct (fun _ => rfl) (
    sayF_field (say_option (say_diff n)) <|
    sayF_field (say_list (say_issue n)) <|
    sayF_field (say_string) <|
    sayF_nil)

theorem say_pedigreeWith (C : JCodec Component) (n : Nat) (hC : SayC n C) : SayC n (J.pedigree C) :=
  say_struct (fun _ => rfl) (
    sayF_field (say_list (hC)) <|
    sayF_field (say_list (hC)) <|
    sayF_field (say_list (hC)) <|
    sayF_field (say_list (say_commit n)) <|
    sayF_field (say_list (say_patch n)) <|
    sayF_field (say_string) <|
    sayF_nil)


theorem say_note (n : Nat) : SayC n J.note :=
  say_struct (fun _ => rfl) (
    sayF_field (say_string) <|
    sayF_field (say_attachedText n) <|
    sayF_nil)

theorem say_releaseNotes (n : Nat) : SayC n J.releaseNotes :=
  say_struct (fun _ => rfl) (
    sayF_field (say_string) <|
    sayF_field (say_string) <|
    sayF_field (say_string) <|
    sayF_field (say_string) <|
    sayF_field (say_string) <|
    sayF_field (say_string) <|
    sayF_field (say_list (say_string)) <|
    sayF_field (say_list (say_string)) <|
    sayF_field (say_list (say_issue n)) <|
    sayF_field (say_list (say_note n)) <|
    sayF_field (say_list (say_property n)) <|
    sayF_nil)

theorem say_swid (n : Nat) : SayC n J.swid :=
  say_struct (fun _ => rfl) (
    sayF_field (say_option (say_attachedText n)) <|
    sayF_field (say_string) <|
    sayF_field (say_string) <|
    sayF_field (say_string) <|
    sayF_field (say_string) <|
    sayF_field (say_option (say_int)) <|
    sayF_field (say_option (say_bool)) <|
    sayF_nil)

theorem say_asserterChoice (n : Nat) : SayC n J.asserterChoice := by
  intro P hP
  obtain ⟨A, az, ao, as⟩ := say_organizationalEntity n (P.below "organization") (hP.below _)
  obtain ⟨B, bz, bo, bs⟩ := say_organizationalContact n (P.below "individual") (hP.below _)
  obtain ⟨C, cz, co, cs⟩ := say_bomReference (n := n) (P.below "ref") (hP.below _)
  have one : ∀ k j, All (P.below k) j → All P (.obj [(k, j)]) := fun k j h => all_obj.2 fun m hm => by
    simp only [List.mem_singleton] at hm
    subst hm
    exact h
  refine ⟨fun x => (∀ i ∈ x.organization, A i) ∧ (∀ i ∈ x.individual, B i) ∧ ∀ i ∈ x.bomRef, C i,
    ⟨nofun, nofun, nofun⟩, ?_, ?_⟩
  · rintro ⟨a, b, c⟩ ⟨h1, h2, h3⟩ j hj
    simp only [J.asserterChoice] at hj
    split at hj
    · obtain ⟨i, hi, rfl⟩ := Option.map_eq_some_iff.1 hj
      exact one _ _ (ao _ (h1 _ rfl) i hi)
    · obtain ⟨i, hi, rfl⟩ := Option.map_eq_some_iff.1 hj
      exact one _ _ (bo _ (h2 _ rfl) i hi)
    · obtain ⟨i, hi, rfl⟩ := Option.map_eq_some_iff.1 hj
      exact one _ _ (co _ (h3 _ rfl) i hi)
    · simp only [Option.some.injEq] at hj
      subst hj
      exact all_obj.2 (by simp)
  · rintro j x y hj ha ⟨h1, h2, h3⟩ hd
    cases j <;> simp only [J.asserterChoice, Option.some.injEq, reduceCtorEq] at hd
    · exact hd ▸ ⟨h1, h2, h3⟩
    · rename_i ms
      have hj : Json.depthM ms + 1 < n := hj
      split at hd
      · obtain ⟨i, hi, rfl⟩ := Option.map_eq_some_iff.1 hd
        rename_i h
        have := rawMember_words ha h
        exact ⟨fun q hq => by cases hq; exact as _ _ _ (by omega) this.1 az hi, h2, h3⟩
      · obtain ⟨i, hi, rfl⟩ := Option.map_eq_some_iff.1 hd
        rename_i _ h
        have := rawMember_words ha h
        exact ⟨h1, fun q hq => by cases hq; exact bs _ _ _ (by omega) this.1 bz hi, h3⟩
      · obtain ⟨i, hi, rfl⟩ := Option.map_eq_some_iff.1 hd
        rename_i _ _ h
        have := rawMember_words ha h
        exact ⟨h1, h2, fun q hq => by cases hq; exact cs _ _ _ (by omega) this.1 cz hi⟩
      · simp only [Option.some.injEq] at hd
        exact hd ▸ ⟨h1, h2, h3⟩


theorem say_patentAssertion (n : Nat) : SayC n J.patentAssertion :=
  say_struct (fun _ => rfl) (
    sayF_field (say_string) <|
    sayF_field (say_list (say_bomReference)) <|
    sayF_field (say_string) <|
    sayF_field (say_option (say_asserterChoice n)) <|
    sayF_field (say_string) <|
    sayF_nil)

theorem say_componentWith (C : JCodec Component) (n : Nat) (hC : SayC n C) : SayC (n + 1) (J.componentWith C) :=
  have hP := say_pedigreeWith C n hC
  say_struct' (fun _ => rfl) (
    sayF_field (say_string) <|
    sayF_field (say_string) <|
    sayF_field (say_string) <|
    sayF_field (say_option (say_organizationalEntity n)) <|
    sayF_field (say_option (say_organizationalEntity n)) <|
    sayF_field (say_string) <|
    sayF_field (say_list (say_organizationalContact n)) <|
    sayF_field (say_string) <|
    sayF_field (say_string) <|
    sayF_field (say_string) <|
    sayF_field (say_string) <|
    sayF_field (say_string) <|
    sayF_field (say_string) <|
    sayF_field (say_list (say_hash n)) <|
    sayF_field (say_list (say_licenseChoice n)) <|
    sayF_field (say_string) <|
    sayF_field (say_string) <|
    sayF_field (say_string) <|
    sayF_field (say_list (say_string)) <|
    sayF_field (say_list (say_string)) <|
    sayF_field (say_option (say_swid n)) <|
    sayF_field (say_option (say_bool)) <|
    sayF_field (say_option (hP)) <|
    sayF_field (say_list (say_externalReference n)) <|
    sayF_field (say_list (say_property n)) <|
    sayF_field (say_list (hC)) <|
    sayF_field (say_option (say_evidence n)) <|
    sayF_field (say_option (say_releaseNotes n)) <|
    sayF_field (say_option (say_mlModelCard n)) <|
    sayF_field (say_list (say_componentData n)) <|
    sayF_field (say_option (say_cryptoProperties n)) <|
    sayF_field (say_list (say_string)) <|
    sayF_field (say_option (say_bool)) <|
    sayF_field (say_list (say_patentAssertion n)) <|
    sayF_field (say_string) <|
    sayF_field (say_option (say_jsfSignature n)) <|
    sayF_nil)

theorem say_component (n : Nat) : SayC n J.component := by
  induction n with
  | zero =>
    intro P hP
    refine ⟨fun x => x = J.component.zero, rfl, fun x hx j hj => ?_, fun j x y hj => by omega⟩
    subst hx
    rw [component_enc] at hj
    have : (J.componentWith J.component).enc J.component.zero = some (.obj [("type", .str ""), ("name", .str "")]) := rfl
    rw [this, Option.some.injEq] at hj
    subst hj
    refine all_obj.2 fun m hm => ?_
    simp only [List.mem_cons, List.not_mem_nil, or_false] at hm
    rcases hm with rfl | rfl <;> exact all_str.2 (hP.below _ _ _ rfl)
  | succ n ih =>
    intro P hP
    obtain ⟨I, hz, ho, hs⟩ := say_componentWith _ n ih P hP
    exact ⟨I, hz, fun x hx j hj => ho x hx j (by rw [← component_enc]; exact hj),
      fun j x y hj ha hx hd => hs j x y hj ha hx (by rw [← component_dec]; exact hd)⟩


theorem say_dataClassification (n : Nat) : SayC n J.dataClassification :=
  say_struct (fun _ => rfl) (
    sayF_field (say_string) <|
    sayF_field (say_string) <|
    sayF_field (say_string) <|
    sayF_field (say_string) <|
    sayF_field (say_option (say_dataGovernance n)) <|
    sayF_field (say_list (say_string)) <|
    sayF_field (say_list (say_string)) <|
    sayF_nil)

theorem say_serviceWith (C : JCodec Service) (n : Nat) (hC : SayC n C) : SayC (n + 1) (J.serviceWith C) :=
  say_struct' (fun _ => rfl) (
    sayF_field (say_string) <|
    sayF_field (say_option (say_organizationalEntity n)) <|
    sayF_field (say_string) <|
    sayF_field (say_string) <|
    sayF_field (say_string) <|
    sayF_field (say_string) <|
    sayF_field (say_list (say_string)) <|
    sayF_field (say_option (say_bool)) <|
    sayF_field (say_option (say_bool)) <|
    sayF_field (say_list (say_dataClassification n)) <|
    sayF_field (say_list (say_licenseChoice n)) <|
    sayF_field (say_list (say_externalReference n)) <|
    sayF_field (say_list (say_property n)) <|
    sayF_field (say_list (hC)) <|
    sayF_field (say_option (say_releaseNotes n)) <|
    sayF_field (say_list (say_string)) <|
    sayF_field (say_string) <|
    sayF_field (say_list (say_patentAssertion n)) <|
    sayF_field (say_option (say_jsfSignature n)) <|
    sayF_nil)

theorem say_service (n : Nat) : SayC n J.service := by
  induction n with
  | zero =>
    intro P hP
    refine ⟨fun x => x = J.service.zero, rfl, fun x hx j hj => ?_, fun j x y hj => by omega⟩
    subst hx
    rw [service_enc] at hj
    have : (J.serviceWith J.service).enc J.service.zero = some (.obj [("name", .str "")]) := rfl
    rw [this, Option.some.injEq] at hj
    subst hj
    refine all_obj.2 fun m hm => ?_
    simp only [List.mem_cons, List.not_mem_nil, or_false] at hm
    subst hm
    exact all_str.2 (hP.below _ _ _ rfl)
  | succ n ih =>
    intro P hP
    obtain ⟨I, hz, ho, hs⟩ := say_serviceWith _ n ih P hP
    exact ⟨I, hz, fun x hx j hj => ho x hx j (by rw [← service_enc]; exact hj),
      fun j x y hj ha hx hd => hs j x y hj ha hx (by rw [← service_dec]; exact hd)⟩


theorem say_annotator (n : Nat) : SayC n J.annotator :=
  say_struct (fun _ => rfl) (
    sayF_field (say_option (say_organizationalEntity n)) <|
    sayF_field (say_option (say_organizationalContact n)) <|
    sayF_field (say_option (say_component n)) <|
    sayF_field (say_option (say_service n)) <|
    sayF_nil)

theorem say_annotation (n : Nat) : SayC n J.annotation :=
  say_struct (fun _ => rfl) (
    sayF_field (say_string) <|
    sayF_field (say_list (say_bomReference)) <|
    sayF_field (say_option (say_annotator n)) <|
    sayF_field (say_string) <|
    sayF_field (say_string) <|
    sayF_field (say_option (say_jsfSignature n)) <|
    sayF_nil)

theorem say_assessor (n : Nat) : SayC n J.assessor :=
  say_struct (fun _ => rfl) (
    sayF_field (say_bomReference) <|
    sayF_field (say_bool) <|
    sayF_field (say_option (say_organizationalEntity n)) <|
    sayF_nil)

theorem say_attestationConformance (n : Nat) : SayC n J.attestationConformance :=
  say_struct (fun _ => rfl) (
    sayF_field (say_option (say_f64)) <|
    sayF_field (say_string) <|
    sayF_field (say_list (say_bomReference)) <|
    sayF_nil)

theorem say_attestationConfidence (n : Nat) : SayC n J.attestationConfidence :=
  say_struct (fun _ => rfl) (
    sayF_field (say_option (say_f64)) <|
    sayF_field (say_string) <|
    sayF_nil)

theorem say_attestationMap (n : Nat) : SayC n J.attestationMap :=
  say_struct (fun _ => rfl) (
    sayF_field (say_string) <|
    sayF_field (say_list (say_bomReference)) <|
    sayF_field (say_list (say_bomReference)) <|
    sayF_field (say_option (say_attestationConformance n)) <|
    sayF_field (say_option (say_attestationConfidence n)) <|
    sayF_nil)

theorem say_attestation (n : Nat) : SayC n J.attestation :=
  say_struct (fun _ => rfl) (
    sayF_field (say_string) <|
    sayF_field (say_bomReference) <|
    sayF_field (say_list (say_attestationMap n)) <|
    sayF_field (say_option (say_jsfSignature n)) <|
    sayF_nil)

theorem say_composition (n : Nat) : SayC n J.composition :=
  say_struct (fun _ => rfl) (
    sayF_field (say_string) <|
    sayF_field (say_string) <|
    sayF_field (say_list (say_bomReference)) <|
    sayF_field (say_list (say_bomReference)) <|
    sayF_field (say_list (say_bomReference)) <|
    sayF_field (say_option (say_jsfSignature n)) <|
    sayF_nil)

theorem say_claim (n : Nat) : SayC n J.claim :=
  say_struct (fun _ => rfl) (
    sayF_field (say_string) <|
    sayF_field (say_bomReference) <|
    sayF_field (say_string) <|
    sayF_field (say_list (say_bomReference)) <|
    sayF_field (say_string) <|
    sayF_field (say_list (say_bomReference)) <|
    sayF_field (say_list (say_bomReference)) <|
    sayF_field (say_list (say_externalReference n)) <|
    sayF_field (say_option (say_jsfSignature n)) <|
    sayF_nil)

theorem say_evidenceDataContents (n : Nat) : SayC n J.evidenceDataContents :=
  say_struct (fun _ => rfl) (
    sayF_field (say_option (say_attachedText n)) <|
    sayF_field (say_string) <|
    sayF_nil)

theorem say_evidenceData (n : Nat) : SayC n J.evidenceData :=
  say_struct (fun _ => rfl) (
    sayF_field (say_string) <|
    sayF_field (say_option (say_evidenceDataContents n)) <|
    sayF_field (say_option (say_dataClassification n)) <|
    sayF_field (say_list (say_string)) <|
    sayF_field (say_option (say_dataGovernance n)) <|
    sayF_nil)

theorem say_declarationEvidence (n : Nat) : SayC n J.declarationEvidence :=
  say_struct (fun _ => rfl) (
    sayF_field (say_string) <|
    sayF_field (say_string) <|
    sayF_field (say_string) <|
    sayF_field (say_list (say_evidenceData n)) <|
    sayF_field (say_string) <|
    sayF_field (say_string) <|
    sayF_field (say_option (say_organizationalContact n)) <|
    sayF_field (say_option (say_organizationalContact n)) <|
    sayF_field (say_option (say_jsfSignature n)) <|
    sayF_nil)

theorem say_targets (n : Nat) : SayC n J.targets :=
  say_struct (fun _ => rfl) (
    sayF_field (say_list (say_organizationalEntity n)) <|
    sayF_field (say_list (say_component n)) <|
    sayF_field (say_list (say_service n)) <|
    sayF_nil)

theorem say_signatory (n : Nat) : SayC n J.signatory :=
  say_struct (fun _ => rfl) (
    sayF_field (say_string) <|
    sayF_field (say_string) <|
    sayF_field (say_option (say_jsfSignature n)) <|
    sayF_field (say_option (say_organizationalEntity n)) <|
    sayF_field (say_option (say_externalReference n)) <|
    sayF_nil)

theorem say_affirmation (n : Nat) : SayC n J.affirmation :=
  say_struct (fun _ => rfl) (
    sayF_field (say_string) <|
    sayF_field (say_list (say_signatory n)) <|
    sayF_field (say_option (say_jsfSignature n)) <|
    sayF_nil)

theorem say_declarations (n : Nat) : SayC n J.declarations :=
  say_struct (fun _ => rfl) (
    sayF_field (say_list (say_assessor n)) <|
    sayF_field (say_list (say_attestation n)) <|
    sayF_field (say_list (say_claim n)) <|
    sayF_field (say_list (say_declarationEvidence n)) <|
    sayF_field (say_option (say_targets n)) <|
    sayF_field (say_option (say_affirmation n)) <|
    sayF_field (say_option (say_jsfSignature n)) <|
    sayF_nil)

theorem say_priorityApplication (n : Nat) : SayC n J.priorityApplication :=
  say_struct (fun _ => rfl) (
    sayF_field (say_string) <|
    sayF_field (say_string) <|
    sayF_field (say_string) <|
    sayF_nil)

theorem say_patent (n : Nat) : SayC n J.patent :=
  say_struct (fun _ => rfl) (
    sayF_field (say_string) <|
    sayF_field (say_string) <|
    sayF_field (say_string) <|
    sayF_field (say_string) <|
    sayF_field (say_option (say_priorityApplication n)) <|
    sayF_field (say_string) <|
    sayF_field (say_string) <|
    sayF_field (say_string) <|
    sayF_field (say_string) <|
    sayF_field (say_string) <|
    sayF_field (say_string) <|
    sayF_field (say_string) <|
    sayF_field (say_list (say_organizationalEntityOrContact n)) <|
    sayF_field (say_list (say_externalReference n)) <|
    sayF_nil)

theorem say_patentFamily (n : Nat) : SayC n J.patentFamily :=
  say_struct (fun _ => rfl) (
    sayF_field (say_string) <|
    sayF_field (say_string) <|
    sayF_field (say_option (say_priorityApplication n)) <|
    sayF_field (say_list (say_bomReference)) <|
    sayF_field (say_list (say_externalReference n)) <|
    sayF_nil)

theorem say_patentChoice (n : Nat) : SayC n J.patentChoice := by
  intro P hP
  obtain ⟨I, hz, ho, hs⟩ := say_patent n P hP
  obtain ⟨L, lz, lo, ls⟩ := say_patentFamily n P hP
  refine ⟨fun x => (∀ i ∈ x.patent, I i) ∧ ∀ i ∈ x.patentFamily, L i,
    ⟨nofun, nofun⟩, ?_, ?_⟩
  · rintro ⟨a, b⟩ ⟨h1, h2⟩ j hj
    cases a <;> cases b <;> simp only [J.patentChoice, Option.some.injEq, reduceCtorEq] at hj
    · subst hj; first | exact all_null | exact all_obj.2 (by simp)
    · exact lo _ (h2 _ rfl) j hj
    · exact ho _ (h1 _ rfl) j hj
    · exact ho _ (h1 _ rfl) j hj
  · rintro j x y hj ha ⟨h1, h2⟩ hd
    simp only [J.patentChoice] at hd
    split at hd
    · cases hd
    · split at hd <;> split at hd
      · cases hd
      · rename_i he
        simp only [Option.some.injEq] at hd
        subst hd
        exact ⟨h1, fun q hq => by cases hq; exact ls _ _ _ hj ha lz he⟩
      · cases hd
      · rename_i he
        simp only [Option.some.injEq] at hd
        subst hd
        exact ⟨fun q hq => by cases hq; exact hs _ _ _ hj ha hz he, h2⟩


theorem say_standardRequirement (n : Nat) : SayC n J.standardRequirement :=
  say_struct (fun _ => rfl) (
    sayF_field (say_string) <|
    sayF_field (say_string) <|
    sayF_field (say_string) <|
    sayF_field (say_string) <|
    sayF_field (say_list (say_string)) <|
    sayF_field (say_list (say_string)) <|
    sayF_field (say_string) <|
    sayF_field (say_list (say_property n)) <|
    sayF_field (say_list (say_externalReference n)) <|
    sayF_nil)

theorem say_standardLevel (n : Nat) : SayC n J.standardLevel :=
  say_struct (fun _ => rfl) (
    sayF_field (say_string) <|
    sayF_field (say_string) <|
    sayF_field (say_string) <|
    sayF_field (say_string) <|
    sayF_field (say_list (say_string)) <|
    sayF_nil)

theorem say_standardDefinition (n : Nat) : SayC n J.standardDefinition :=
  say_struct (fun _ => rfl) (
    sayF_field (say_string) <|
    sayF_field (say_string) <|
    sayF_field (say_string) <|
    sayF_field (say_string) <|
    sayF_field (say_string) <|
    sayF_field (say_list (say_standardRequirement n)) <|
    sayF_field (say_list (say_standardLevel n)) <|
    sayF_field (say_list (say_externalReference n)) <|
    sayF_field (say_option (say_jsfSignature n)) <|
    sayF_nil)

theorem say_definitions (n : Nat) : SayC n J.definitions :=
  say_struct (fun _ => rfl) (
    sayF_field (say_list (say_standardDefinition n)) <|
    sayF_field (say_list (say_patentChoice n)) <|
    sayF_nil)

theorem say_dependency (n : Nat) : SayC n J.dependency :=
  say_struct (fun _ => rfl) (
    sayF_field (say_string) <|
    sayF_field (say_list (say_string)) <|
    sayF_field (say_list (say_string)) <|
    sayF_nil)

theorem say_resourceReferenceChoice (n : Nat) : SayC n J.resourceReferenceChoice :=
  say_struct (fun _ => rfl) (
    sayF_field (say_string) <|
    sayF_field (say_option (say_externalReference n)) <|
    sayF_nil)

theorem say_environmentVariableChoice (n : Nat) : SayC n J.environmentVariableChoice := by
  intro P hP
  obtain ⟨I, hz, ho, hs⟩ := say_property n P hP
  refine ⟨fun x => P [] (.str x.value) ∧ ∀ p ∈ x.property, I p, ⟨hP _ _ rfl, by intro p hp; cases hp⟩, ?_, ?_⟩
  · rintro ⟨p, s⟩ ⟨h1, h2⟩ j hj
    have val : ∀ j, (if s ≠ "" then some (Json.str s) else some (.obj [])) = some j → All P j := by
      intro j hj
      split at hj <;> simp only [Option.some.injEq] at hj <;> subst hj
      · exact all_str.2 h1
      · exact all_obj.2 (by simp)
    cases p with
    | none => exact val j hj
    | some p =>
      simp only [J.environmentVariableChoice] at hj
      split at hj
      · exact ho p (h2 p rfl) j hj
      · exact val j hj
  · rintro j x y hj ha ⟨h1, h2⟩ hd
    cases j <;> simp only [J.environmentVariableChoice, Option.some.injEq, reduceCtorEq] at hd
    · subst hd; exact ⟨hP _ _ rfl, h2⟩
    · subst hd; exact ⟨all_str.1 ha, h2⟩
    · split at hd
      · cases hd
      · rename_i p he
        split at hd <;> simp only [Option.some.injEq] at hd <;> subst hd
        · exact ⟨h1, fun q hq => by cases hq; exact hs _ _ _ hj ha hz he⟩
        · exact ⟨hP _ _ rfl, h2⟩


theorem say_parameter (n : Nat) : SayC n J.parameter :=
  say_struct (fun _ => rfl) (
    sayF_field (say_string) <|
    sayF_field (say_string) <|
    sayF_field (say_string) <|
    sayF_nil)

theorem say_taskInput (n : Nat) : SayC n J.taskInput :=
  say_struct (fun _ => rfl) (
    sayF_field (say_option (say_resourceReferenceChoice n)) <|
    sayF_field (say_list (say_parameter n)) <|
    sayF_field (say_list (say_environmentVariableChoice n)) <|
    sayF_field (say_option (say_attachedText n)) <|
    sayF_field (say_option (say_resourceReferenceChoice n)) <|
    sayF_field (say_option (say_resourceReferenceChoice n)) <|
    sayF_field (say_list (say_property n)) <|
    sayF_nil)

theorem say_taskOutput (n : Nat) : SayC n J.taskOutput :=
  say_struct (fun _ => rfl) (
    sayF_field (say_option (say_resourceReferenceChoice n)) <|
    sayF_field (say_list (say_parameter n)) <|
    sayF_field (say_list (say_environmentVariableChoice n)) <|
    sayF_field (say_option (say_attachedText n)) <|
    sayF_field (say_string) <|
    sayF_field (say_option (say_resourceReferenceChoice n)) <|
    sayF_field (say_option (say_resourceReferenceChoice n)) <|
    sayF_field (say_list (say_property n)) <|
    sayF_nil)

theorem say_taskCommand (n : Nat) : SayC n J.taskCommand :=
  say_struct (fun _ => rfl) (
    sayF_field (say_string) <|
    sayF_field (say_list (say_property n)) <|
    sayF_nil)

theorem say_taskStep (n : Nat) : SayC n J.taskStep :=
  say_struct (fun _ => rfl) (
    sayF_field (say_string) <|
    sayF_field (say_string) <|
    sayF_field (say_list (say_taskCommand n)) <|
    sayF_field (say_list (say_property n)) <|
    sayF_nil)

theorem say_event (n : Nat) : SayC n J.event :=
  say_struct (fun _ => rfl) (
    sayF_field (say_string) <|
    sayF_field (say_string) <|
    sayF_field (say_string) <|
    sayF_field (say_option (say_attachedText n)) <|
    sayF_field (say_option (say_resourceReferenceChoice n)) <|
    sayF_field (say_option (say_resourceReferenceChoice n)) <|
    sayF_field (say_list (say_property n)) <|
    sayF_nil)

theorem say_taskTriggerCondition (n : Nat) : SayC n J.taskTriggerCondition :=
  say_struct (fun _ => rfl) (
    sayF_field (say_string) <|
    sayF_field (say_string) <|
    sayF_field (say_list (say_property n)) <|
    sayF_nil)

theorem say_taskTrigger (n : Nat) : SayC n J.taskTrigger :=
  say_struct (fun _ => rfl) (
    sayF_field (say_string) <|
    sayF_field (say_string) <|
    sayF_field (say_string) <|
    sayF_field (say_string) <|
    sayF_field (say_list (say_resourceReferenceChoice n)) <|
    sayF_field (say_string) <|
    sayF_field (say_option (say_event n)) <|
    sayF_field (say_list (say_taskTriggerCondition n)) <|
    sayF_field (say_string) <|
    sayF_field (say_list (say_taskInput n)) <|
    sayF_field (say_list (say_taskOutput n)) <|
    sayF_field (say_list (say_property n)) <|
    sayF_nil)

theorem say_volume (n : Nat) : SayC n J.volume :=
  say_struct (fun _ => rfl) (
    sayF_field (say_string) <|
    sayF_field (say_string) <|
    sayF_field (say_string) <|
    sayF_field (say_string) <|
    sayF_field (say_string) <|
    sayF_field (say_option (say_bool)) <|
    sayF_field (say_option (say_bool)) <|
    sayF_field (say_list (say_property n)) <|
    sayF_nil)

theorem say_taskWorkspace (n : Nat) : SayC n J.taskWorkspace :=
  say_struct (fun _ => rfl) (
    sayF_field (say_string) <|
    sayF_field (say_string) <|
    sayF_field (say_string) <|
    sayF_field (say_list (say_string)) <|
    sayF_field (say_string) <|
    sayF_field (say_list (say_resourceReferenceChoice n)) <|
    sayF_field (say_string) <|
    sayF_field (say_string) <|
    sayF_field (say_string) <|
    sayF_field (say_string) <|
    sayF_field (say_option (say_volume n)) <|
    sayF_field (say_list (say_property n)) <|
    sayF_nil)

theorem say_task (n : Nat) : SayC n J.task :=
  say_struct (fun _ => rfl) (
    sayF_field (say_string) <|
    sayF_field (say_string) <|
    sayF_field (say_string) <|
    sayF_field (say_string) <|
    sayF_field (say_list (say_property n)) <|
    sayF_field (say_list (say_resourceReferenceChoice n)) <|
    sayF_field (say_list (say_string)) <|
    sayF_field (say_option (say_taskTrigger n)) <|
    sayF_field (say_list (say_taskStep n)) <|
    sayF_field (say_list (say_taskInput n)) <|
    sayF_field (say_list (say_taskOutput n)) <|
    sayF_field (say_string) <|
    sayF_field (say_string) <|
    sayF_field (say_list (say_taskWorkspace n)) <|
    sayF_field (say_list (say_dependency n)) <|
    sayF_nil)

theorem say_workflow (n : Nat) : SayC n J.workflow :=
  say_struct (fun _ => rfl) (
    sayF_field (say_string) <|
    sayF_field (say_string) <|
    sayF_field (say_string) <|
    sayF_field (say_string) <|
    sayF_field (say_list (say_resourceReferenceChoice n)) <|
    sayF_field (say_list (say_task n)) <|
    sayF_field (say_list (say_dependency n)) <|
    sayF_field (say_list (say_string)) <|
    sayF_field (say_option (say_taskTrigger n)) <|
    sayF_field (say_list (say_taskStep n)) <|
    sayF_field (say_list (say_taskInput n)) <|
    sayF_field (say_list (say_taskOutput n)) <|
    sayF_field (say_string) <|
    sayF_field (say_string) <|
    sayF_field (say_list (say_taskWorkspace n)) <|
    sayF_field (say_list (say_dependency n)) <|
    sayF_field (say_list (say_property n)) <|
    sayF_nil)

theorem say_formula (n : Nat) : SayC n J.formula :=
  say_struct (fun _ => rfl) (
    sayF_field (say_string) <|
    sayF_field (say_list (say_component n)) <|
    sayF_field (say_list (say_service n)) <|
    sayF_field (say_list (say_workflow n)) <|
    sayF_field (say_list (say_property n)) <|
    sayF_nil)

theorem say_lifecycle (n : Nat) : SayC n J.lifecycle :=
  say_struct (fun _ => rfl) (
    sayF_field (say_string) <|
    sayF_field (say_string) <|
    sayF_field (say_string) <|
    sayF_nil)

theorem say_tool (n : Nat) : SayC n J.tool :=
  say_struct (fun _ => rfl) (
    sayF_field (say_string) <|
    sayF_field (say_string) <|
    sayF_field (say_string) <|
    sayF_field (say_list (say_hash n)) <|
    sayF_field (say_list (say_externalReference n)) <|
    sayF_nil)

theorem say_toolsChoiceJSON (n : Nat) : SayC n J.toolsChoiceJSON :=
  say_struct (fun _ => rfl) (sayF_field (say_list (say_component n)) <| sayF_field (say_list (say_service n)) sayF_nil)

theorem say_toolsChoice (n : Nat) : SayC n J.toolsChoice := by
  intro P hP
  obtain ⟨I, hz, ho, hs⟩ := say_toolsChoiceJSON n P hP
  obtain ⟨L, lz, lo, ls⟩ := say_list (say_tool n) P hP
  refine ⟨fun x => L x.tools ∧ I (x.components, x.services), ⟨lz, hz⟩, ?_, ?_⟩
  · rintro x ⟨h1, h2⟩ j hj
    simp only [J.toolsChoice] at hj
    split at hj
    · cases hj
    · split at hj
      · exact lo _ h1 j hj
      · split at hj
        · exact ho _ h2 j hj
        · cases hj
  · rintro j x y hj ha ⟨h1, h2⟩ hd
    simp only [J.toolsChoice] at hd
    split at hd <;> split at hd
    · cases hd
    · rename_i he
      simp only [Option.some.injEq] at hd
      subst hd
      exact ⟨ls _ _ _ hj ha lz he, hz⟩
    · cases hd
    · rename_i q he
      split at hd <;> simp only [Option.some.injEq] at hd <;> subst hd
      · exact ⟨lz, hs _ _ _ hj ha hz he⟩
      · exact ⟨h1, h2⟩


theorem say_distributionConstraints (n : Nat) : SayC n J.distributionConstraints :=
  say_struct (fun _ => rfl) (
    sayF_field (say_string) <|
    sayF_nil)

theorem say_metadata (n : Nat) : SayC n J.metadata :=
  say_struct (fun _ => rfl) (
    sayF_field (say_string) <|
    sayF_field (say_list (say_lifecycle n)) <|
    sayF_field (say_option (say_toolsChoice n)) <|
    sayF_field (say_list (say_organizationalContact n)) <|
    sayF_field (say_option (say_component n)) <|
    sayF_field (say_option (say_organizationalEntity n)) <|
    sayF_field (say_option (say_organizationalEntity n)) <|
    sayF_field (say_option (say_organizationalEntity n)) <|
    sayF_field (say_list (say_licenseChoice n)) <|
    sayF_field (say_list (say_property n)) <|
    sayF_field (say_option (say_distributionConstraints n)) <|
    sayF_nil)

theorem say_credits (n : Nat) : SayC n J.credits :=
  say_struct (fun _ => rfl) (
    sayF_field (say_list (say_organizationalEntity n)) <|
    sayF_field (say_list (say_organizationalContact n)) <|
    sayF_nil)

theorem say_proofOfConcept (n : Nat) : SayC n J.proofOfConcept :=
  say_struct (fun _ => rfl) (
    sayF_field (say_string) <|
    sayF_field (say_string) <|
    sayF_field (say_list (say_attachedText n)) <|
    sayF_nil)

theorem say_vulnerabilityAnalysis (n : Nat) : SayC n J.vulnerabilityAnalysis :=
  say_struct (fun _ => rfl) (
    sayF_field (say_string) <|
    sayF_field (say_string) <|
    sayF_field (say_list (say_string)) <|
    sayF_field (say_string) <|
    sayF_field (say_string) <|
    sayF_field (say_string) <|
    sayF_nil)

theorem say_vulnerabilityRating (n : Nat) : SayC n J.vulnerabilityRating :=
  say_struct (fun _ => rfl) (
    sayF_field (say_option (say_source n)) <|
    sayF_field (say_option (say_f64)) <|
    sayF_field (say_string) <|
    sayF_field (say_string) <|
    sayF_field (say_string) <|
    sayF_field (say_string) <|
    sayF_nil)

theorem say_vulnerabilityReference (n : Nat) : SayC n J.vulnerabilityReference :=
  say_struct (fun _ => rfl) (
    sayF_field (say_string) <|
    sayF_field (say_option (say_source n)) <|
    sayF_nil)

theorem say_vulnerability (n : Nat) : SayC n J.vulnerability :=
  say_struct (fun _ => rfl) (
    sayF_field (say_string) <|
    sayF_field (say_string) <|
    sayF_field (say_option (say_source n)) <|
    sayF_field (say_list (say_vulnerabilityReference n)) <|
    sayF_field (say_list (say_vulnerabilityRating n)) <|
    sayF_field (say_list (say_int)) <|
    sayF_field (say_string) <|
    sayF_field (say_string) <|
    sayF_field (say_string) <|
    sayF_field (say_string) <|
    sayF_field (say_option (say_proofOfConcept n)) <|
    sayF_field (say_list (say_advisory n)) <|
    sayF_field (say_string) <|
    sayF_field (say_string) <|
    sayF_field (say_string) <|
    sayF_field (say_string) <|
    sayF_field (say_option (say_credits n)) <|
    sayF_field (say_option (say_toolsChoice n)) <|
    sayF_field (say_option (say_vulnerabilityAnalysis n)) <|
    sayF_field (say_list (say_affects n)) <|
    sayF_field (say_list (say_property n)) <|
    sayF_nil)

theorem say_citation (n : Nat) : SayC n J.citation :=
  say_struct (fun _ => rfl) (
    sayF_field (say_string) <|
    sayF_field (say_list (say_string)) <|
    sayF_field (say_list (say_string)) <|
    sayF_field (say_string) <|
    sayF_field (say_option (say_bomReference)) <|
    sayF_field (say_string) <|
    sayF_field (say_string) <|
    sayF_field (say_option (say_jsfSignature n)) <|
    sayF_nil)

theorem say_bomWith (sv : JCodec Int) (n : Nat) (hS : SayC n sv) : SayC n (J.bomWith sv) :=
  say_struct (fun _ => rfl) (
    sayF_skip <|
    sayF_skip <|
    sayF_field (say_string) <|
    sayF_field (say_string) <|
    sayF_field (hS) <|
    sayF_field (say_string) <|
    sayF_field (say_int) <|
    sayF_field (say_option (say_metadata n)) <|
    sayF_field (say_list (say_component n)) <|
    sayF_field (say_list (say_service n)) <|
    sayF_field (say_list (say_externalReference n)) <|
    sayF_field (say_list (say_dependency n)) <|
    sayF_field (say_list (say_composition n)) <|
    sayF_field (say_list (say_property n)) <|
    sayF_field (say_list (say_vulnerability n)) <|
    sayF_field (say_list (say_annotation n)) <|
    sayF_field (say_list (say_formula n)) <|
    sayF_field (say_option (say_declarations n)) <|
    sayF_field (say_option (say_definitions n)) <|
    sayF_field (say_list (say_citation n)) <|
    sayF_field (say_option (say_jsfSignature n)) <|
    sayF_nil)

/-- The codec of the version of the specification that refuses to write none. -/
def J.someVersion : JCodec Int := { J.specVersion with enc := fun v => if v = 0 then none else J.specVersion.enc v }

theorem say_someVersion (n : Nat) : SayC n J.someVersion := by
  intro P hP
  refine ⟨fun v => v = 0 ∨ P [] (.str (SpecVersion.str v)), .inl rfl, ?_, ?_⟩
  · rintro v hv j hj
    simp only [J.someVersion, J.specVersion] at hj
    split at hj
    · cases hj
    · simp only [Option.some.injEq] at hj
      subst hj
      rcases hv with hv | hv
      · contradiction
      · exact all_str.2 hv
  · intro j x y hn ha hx hd
    clear hn hx
    cases j <;> simp only [J.someVersion, J.specVersion, reduceCtorEq] at hd
    rename_i s
    have : SpecVersion.str y = s := by
      have hm := (Props.specVersionOfString_iff s y).1 hd
      have hall : ∀ q ∈ Props.officialNames.zip Props.allVersions, SpecVersion.str q.2 = q.1 := by decide +kernel
      exact hall _ hm
    exact .inr (this ▸ all_str.1 ha)

theorem someVersion_enc (b : BOM) (h : b.specVersion ≠ 0) : (J.bomWith J.someVersion).enc b = J.bom.enc b := by
  have : J.someVersion.enc b.specVersion = J.specVersion.enc b.specVersion := by simp [J.someVersion, h]
  simp only [J.bom, J.bomWith, JCodec.struct, J.bomFields, BOM.toP, JFields.enc, this]
  rfl

theorem someVersion_dec (j : Json) (b : BOM) : (J.bomWith J.someVersion).dec j b = J.bom.dec j b := by
  have h : ∀ k j b, (J.bomFields J.someVersion).set k j b = (J.bomFields J.specVersion).set k j b := fun _ _ _ => rfl
  have hm : ∀ ms b, (J.bomFields J.someVersion).decMembers ms b = (J.bomFields J.specVersion).decMembers ms b := by
    intro ms
    induction ms with
    | nil => exact fun _ => rfl
    | cons m ms ih =>
      intro b
      simp only [JFields.decMembers, h, ih]
  cases j <;> first | rfl | simp only [J.bom, J.bomWith, JCodec.struct, hm]

end Verif
