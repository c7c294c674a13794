import Verif.Spec.JsonSays
import Verif.Json.KeepLaws
import Verif.Props.Version

/-!
# What is written was read

GENERATED by `tools/gen_says.py`; do not edit by hand.  `SayC n c`: whatever is true of every word of the documents less
than `n` deep that the codec `c` reads, one into the other, and of blank words, is true of every word of what `c` writes.
-/

namespace Verif

open Json (foldKey)

set_option linter.unusedSectionVars false
set_option linter.unusedSimpArgs false
set_option linter.unusedVariables false

variable [FloatIO]

/-- A condition on words and where they are. -/
abbrev Words := List String → Word → Prop
/-- The condition is true of every word of the document. -/
def All (P : Words) (j : Json) : Prop := ∀ p w, j.Says p w → P p w
/-- The condition that `P` is on what is below a member `k`. -/
def Words.below (P : Words) (k : String) : Words := fun p w => ∀ l, foldKey l = foldKey k → P (l :: p) w
/-- Blank words meet the condition. -/
def Words.Lax (P : Words) : Prop := ∀ p w, w.Blank → P p w

theorem Words.Lax.below {P : Words} (h : P.Lax) (k : String) : (P.below k).Lax := fun p w hw l _ => h (l :: p) w hw
theorem below_congr {P : Words} {k l : String} (h : foldKey k = foldKey l) : P.below k = P.below l := by
  unfold Words.below; rw [h]

theorem all_null {P : Words} : All P .null := nofun
theorem all_num {P : Words} {l : NumLit} : All P (.num l) := nofun
theorem all_str {P : Words} {s : String} : All P (.str s) ↔ P [] (.str s) :=
  ⟨fun h => h _ _ (.str s), fun h p w hw => by cases hw; exact h⟩
theorem all_bool {P : Words} {b : Bool} : All P (.bool b) ↔ P [] (.bool b) :=
  ⟨fun h => h _ _ (.bool b), fun h p w hw => by cases hw; exact h⟩
theorem all_arr {P : Words} {js : List Json} : All P (.arr js) ↔ ∀ j ∈ js, All P j :=
  ⟨fun h j hj p w hw => h p w (.elem hj hw), fun h p w hw => by cases hw with | elem hj hw => exact h _ hj p w hw⟩
theorem all_obj {P : Words} {ms : List (String × Json)} : All P (.obj ms) ↔ ∀ m ∈ ms, All (P.below m.1) m.2 := by
  constructor
  · exact fun h m hm p w hw l hl => h (l :: p) w (.member hm hl hw)
  · intro h p w hw
    cases hw with
    | member hm hk hw => exact h _ hm _ w hw _ hk

/-- If `c` writes `x`, the condition is true of every word of it. -/
def OutS {α : Type} (P : Words) (c : JCodec α) (x : α) : Prop := ∀ j, c.enc x = some j → All P j

/-- See the header. -/
def SayC {α : Type} (n : Nat) (c : JCodec α) : Prop :=
  ∀ P : Words, P.Lax → ∃ I : α → Prop, I c.zero ∧ (∀ x, I x → OutS P c x) ∧
    ∀ j x y, j.depth < n → All P j → I x → c.dec j x = some y → I y

/-- The same for the fields of a struct. -/
def SayF {β : Type} (n : Nat) (F : JFields β) : Prop :=
  ∀ P : Words, P.Lax → ∃ K : β → Prop, K F.zero ∧
    (∀ b ms, K b → F.enc b = some ms → ∀ m ∈ ms, All (P.below m.1) m.2) ∧
    ∀ k j b b', j.depth < n → All (P.below k) j → K b → F.set k j b = some b' → K b'

theorem SayC.mono {α : Type} {m n : Nat} {c : JCodec α} (h : SayC n c) (hmn : m ≤ n) : SayC m c := by
  intro P hP
  obtain ⟨I, hz, ho, hd⟩ := h P hP
  exact ⟨I, hz, ho, fun j x y hj => hd j x y (by omega)⟩

theorem say_string {n : Nat} : SayC n JCodec.string := by
  intro P hP
  refine ⟨fun s => P [] (.str s), hP _ _ rfl, fun s h j hj => ?_, fun j x y _ hj hx hd => ?_⟩
  · simp only [JCodec.string, Option.some.injEq] at hj
    subst hj
    exact all_str.2 h
  · cases j <;> simp only [JCodec.string, Option.some.injEq, reduceCtorEq] at hd
    · exact hd ▸ hx
    · exact hd ▸ all_str.1 hj

theorem say_bool {n : Nat} : SayC n JCodec.bool := by
  intro P hP
  refine ⟨fun s => P [] (.bool s), hP _ _ rfl, fun s h j hj => ?_, fun j x y _ hj hx hd => ?_⟩
  · simp only [JCodec.bool, Option.some.injEq] at hj
    subst hj
    exact all_bool.2 h
  · cases j <;> simp only [JCodec.bool, Option.some.injEq, reduceCtorEq] at hd
    · exact hd ▸ hx
    · exact hd ▸ all_bool.1 hj

theorem say_mute {α : Type} {n : Nat} {c : JCodec α} (h : ∀ x j, c.enc x = some j → ∃ l, j = .num l) : SayC n c := by
  intro P _
  refine ⟨fun _ => True, trivial, fun x _ j hj => ?_, fun _ _ _ _ _ _ _ => trivial⟩
  obtain ⟨l, rfl⟩ := h x j hj
  exact all_num

theorem say_option {α : Type} {n : Nat} {c : JCodec α} (h : SayC n c) : SayC n (JCodec.option c) := by
  intro P hP
  obtain ⟨I, hz, ho, hd⟩ := h P hP
  refine ⟨fun o => ∀ a ∈ o, I a, (by intro a ha; cases ha), fun o h j hj => ?_, fun j x y hj ha hx he => ?_⟩
  · cases o with
    | none =>
      simp only [JCodec.option, Option.some.injEq] at hj
      subst hj
      exact all_null
    | some a => exact ho a (h a rfl) j hj
  · by_cases hn : j = .null
    · subst hn
      simp only [JCodec.option, Option.some.injEq] at he
      subst he
      intro a ha
      cases ha
    · rw [option_dec_ne_null c hn, Option.map_eq_some_iff] at he
      obtain ⟨a, he, rfl⟩ := he
      rintro b ⟨⟩
      refine hd j _ a hj ha ?_ he
      cases x with
      | none => exact hz
      | some b => exact hx b rfl

theorem say_decList {α : Type} {n : Nat} {P : Words} {c : JCodec α} {I : α → Prop} (hz : I c.zero)
    (hd : ∀ j x y, j.depth < n → All P j → I x → c.dec j x = some y → I y) : ∀ (js : List Json) (olds xs : List α),
    (∀ j ∈ js, j.depth < n ∧ All P j) → (∀ x ∈ olds, I x) → JCodec.decList c js olds = some xs → ∀ x ∈ xs, I x
  | [], olds, xs, _, _, h => by
    simp only [JCodec.decList, Option.some.injEq] at h
    subst h
    simp
  | j :: js, olds, xs, hj, ho, h => by
    simp only [JCodec.decList] at h
    cases hc : c.dec j (olds.headD c.zero) with
    | none => rw [hc] at h; cases h
    | some a =>
      simp only [hc, Option.map_eq_some_iff] at h
      obtain ⟨ys, hy, rfl⟩ := h
      intro x hx
      cases hx with
      | head =>
        have := hj j List.mem_cons_self
        refine hd j _ _ this.1 this.2 ?_ hc
        cases olds with
        | nil => exact hz
        | cons o os => exact ho o List.mem_cons_self
      | tail _ hx =>
        exact say_decList hz hd js olds.tail ys (fun i hi => hj i (List.mem_cons_of_mem _ hi))
          (fun i hi => ho i (List.mem_of_mem_tail hi)) hy x hx

theorem say_encList {α : Type} {P : Words} {c : JCodec α} : ∀ (xs : List α) (js : List Json), (∀ x ∈ xs, OutS P c x) →
    JCodec.encList c xs = some js → ∀ j ∈ js, All P j
  | [], js, _, h => by
    simp only [JCodec.encList, Option.some.injEq] at h
    subst h
    simp
  | x :: xs, js, hx, h => by
    simp only [JCodec.encList] at h
    cases hc : c.enc x with
    | none => rw [hc] at h; cases h
    | some a =>
      simp only [hc, Option.map_eq_some_iff] at h
      obtain ⟨ys, hy, rfl⟩ := h
      intro j hj
      cases hj with
      | head => exact hx x List.mem_cons_self _ hc
      | tail _ hj => exact say_encList xs ys (fun i hi => hx i (List.mem_cons_of_mem _ hi)) hy j hj

theorem say_list {α : Type} {n : Nat} {c : JCodec α} (h : SayC n c) : SayC n (JCodec.pslice c) := by
  intro P hP
  obtain ⟨I, hz, ho, hd⟩ := h P hP
  refine ⟨fun p => ∀ a ∈ p.elems, I a, (by intro a ha; cases ha), fun p h j hj => ?_, fun j x y hj ha hx he => ?_⟩
  · cases p with
    | list xs =>
      simp only [JCodec.pslice, Option.map_eq_some_iff] at hj
      obtain ⟨js, hj, rfl⟩ := hj
      exact all_arr.2 (say_encList xs js (fun x hx => ho x (h x hx)) hj)
    | _ =>
      simp only [JCodec.pslice, Option.some.injEq] at hj
      subst hj
      exact all_null
  · cases j <;> simp only [JCodec.pslice, Option.some.injEq, reduceCtorEq, Option.map_eq_some_iff] at he
    · subst he
      intro a ha
      cases ha
    · rename_i js
      obtain ⟨xs, he, rfl⟩ := he
      have hj : Json.depthL js + 1 < n := hj
      exact say_decList hz hd js _ xs (fun i hi => ⟨by have := depth_elem hi; omega, all_arr.1 ha i hi⟩) hx he

/-! ### Structs -/

theorem sayF_nil {n : Nat} : SayF n .nil := by
  intro P _
  refine ⟨fun _ => True, trivial, fun b ms _ h => ?_, fun _ _ _ _ _ _ _ _ => trivial⟩
  simp only [JFields.enc, Option.some.injEq] at h
  subst h
  simp

theorem sayF_skip {n : Nat} {α β : Type} {z : α} {F : JFields β} (h : SayF n F) : SayF n (.skip z F) := by
  intro P hP
  obtain ⟨K, hz, ho, hs⟩ := h P hP
  refine ⟨fun b => K b.2, hz, fun b ms => ho b.2 ms, ?_⟩
  intro k j b b' hj ha hk hd
  simp only [JFields.set, Option.map_eq_some_iff] at hd
  obtain ⟨c, hd, rfl⟩ := hd
  exact hs k j b.2 c hj ha hk hd

theorem sayF_field {n : Nat} {α β : Type} {k : String} {oe : Bool} {c : JCodec α} {F : JFields β} (hc : SayC n c)
    (h : SayF n F) : SayF n (.field k oe c F) := by
  intro P hP
  obtain ⟨I, iz, io, is⟩ := hc (P.below k) (hP.below k)
  obtain ⟨K, kz, ko, ks⟩ := h P hP
  refine ⟨fun b => I b.1 ∧ K b.2, ⟨iz, kz⟩, ?_, ?_⟩
  · intro b ms hk he
    simp only [JFields.enc] at he
    by_cases h2 : (oe && c.empty b.1) = true
    · rw [if_pos h2] at he
      exact ko b.2 ms hk.2 he
    · rw [if_neg h2] at he
      cases hc : c.enc b.1 with
      | none => simp [hc] at he
      | some j =>
        simp only [hc, Option.map_eq_some_iff] at he
        obtain ⟨ms', hm, rfl⟩ := he
        intro m hm'
        cases hm' with
        | head => exact io _ hk.1 j hc
        | tail _ hm' => exact ko b.2 ms' hk.2 hm m hm'
  · intro l j b b' hj ha hk hd
    simp only [JFields.set] at hd
    by_cases e : foldKey l = foldKey k
    · simp only [e, if_true, Option.map_eq_some_iff] at hd
      obtain ⟨x, hd, rfl⟩ := hd
      exact ⟨is j _ x hj (below_congr e ▸ ha) hk.1 hd, hk.2⟩
    · simp only [e, if_false, Option.map_eq_some_iff] at hd
      obtain ⟨x, hd, rfl⟩ := hd
      exact ⟨hk.1, ks l j _ x hj ha hk.2 hd⟩

theorem say_decMembers {n : Nat} {P : Words} {β : Type} {F : JFields β} {K : β → Prop}
    (ks : ∀ k j b b', j.depth < n → All (P.below k) j → K b → F.set k j b = some b' → K b') :
    ∀ (ms : List (String × Json)) (b b' : β), Json.depthM ms < n → All P (.obj ms) → K b →
      F.decMembers ms b = some b' → K b'
  | [], b, b', _, _, hk, hd => by
    simp only [JFields.decMembers, Option.some.injEq] at hd
    exact hd ▸ hk
  | m :: ms, b, b', hn, ha, hk, hd => by
    rw [decMembers_cons] at hd
    cases he : F.set m.1 m.2 b with
    | none => simp [he] at hd
    | some c =>
      rw [he, Option.bind_some] at hd
      have hm := depth_member (m := m) (ms := m :: ms) List.mem_cons_self
      have h2 : Json.depthM ms ≤ Json.depthM (m :: ms) := by simp only [Json.depthM]; omega
      rw [all_obj] at ha
      exact say_decMembers ks ms c b' (by omega) (all_obj.2 fun i hi => ha i (List.mem_cons_of_mem _ hi))
        (ks _ _ _ _ (by omega) (ha m List.mem_cons_self) hk he) hd

theorem say_struct' {n : Nat} {σ β : Type} {F : JFields β} {toP : σ → β} {ofP : β → σ} (hP : ∀ b, toP (ofP b) = b)
    (h : SayF n F) : SayC (n + 1) (JCodec.struct F toP ofP) := by
  intro P hl
  obtain ⟨K, kz, ko, ks⟩ := h P hl
  refine ⟨fun x => K (toP x), by simpa only [JCodec.struct, hP] using kz, fun x hx j hj => ?_, fun j x y hj ha hx hd => ?_⟩
  · simp only [JCodec.struct, Option.map_eq_some_iff] at hj
    obtain ⟨ms, hm, rfl⟩ := hj
    exact all_obj.2 (ko _ ms hx hm)
  · cases j <;> simp only [JCodec.struct, Option.some.injEq, reduceCtorEq, Option.map_eq_some_iff] at hd
    · exact hd ▸ hx
    · rename_i ms
      obtain ⟨b, hd, rfl⟩ := hd
      have hj : Json.depthM ms + 1 < n + 1 := hj
      rw [hP]
      exact say_decMembers ks ms _ b (by omega) ha hx hd

theorem say_struct {n : Nat} {σ β : Type} {F : JFields β} {toP : σ → β} {ofP : β → σ} (hP : ∀ b, toP (ofP b) = b)
    (h : SayF n F) : SayC n (JCodec.struct F toP ofP) := (say_struct' hP h).mono (Nat.le_succ n)

theorem say_int {n : Nat} : SayC n JCodec.int :=
  say_mute fun x j h => ⟨_, (by simpa only [JCodec.int, Option.some.injEq, eq_comm] using h)⟩
theorem say_f32 {n : Nat} : SayC n JCodec.f32 := say_mute fun x j h => by
  simp only [JCodec.f32, Option.map_eq_some_iff] at h
  obtain ⟨l, _, rfl⟩ := h
  exact ⟨l, rfl⟩
theorem say_f64 {n : Nat} : SayC n JCodec.f64 := say_mute fun x j h => by
  simp only [JCodec.f64, Option.map_eq_some_iff] at h
  obtain ⟨l, _, rfl⟩ := h
  exact ⟨l, rfl⟩

theorem say_bomReference {n : Nat} : SayC n J.bomReference := by
  intro P hP
  refine ⟨fun s => P [] (.str s.val), hP _ _ rfl, fun s h j hj => ?_, fun j x y _ hj hx hd => ?_⟩
  · simp only [J.bomReference, Option.some.injEq] at hj
    subst hj
    exact all_str.2 h
  · cases j <;> simp only [J.bomReference, Option.some.injEq, reduceCtorEq] at hd
    · exact hd ▸ hx
    · exact hd ▸ all_str.1 hj

/-- A member that is looked at says what it says. -/
theorem peek_words {P : Words} (hP : P.Lax) {k s : String} {j : Json} (h : All P j) (hd : (J.peek k).dec j "" = some s) :
    P.below k [] (.str s) := by
  obtain ⟨I, hz, ho, hs⟩ := say_struct (n := j.depth + 1) (F := .field k false JCodec.string .nil) (toP := fun s : String => (s, ()))
    (ofP := fun p => p.1) (fun _ => rfl) (sayF_field say_string sayF_nil) P hP
  have := ho s (hs j _ s (Nat.lt_succ_self _) h hz hd) (.obj [(k, .str s)]) rfl
  rw [all_obj] at this
  exact all_str.1 (this _ List.mem_cons_self)

/-- The five types that are a reference or a struct without it. -/
theorem say_ike {n : Nat} {σ β : Type} {F : JFields β} {toP : σ → BOMReference × β} {ofP : BOMReference × β → σ}
    {get : σ → BOMReference} {put : σ → BOMReference → σ} (hP : ∀ b, toP (ofP b) = b) (hg : ∀ v, get v = (toP v).1)
    (hp : ∀ v r, toP (put v r) = (r, (toP v).2)) (h : SayF n F) :
    SayC n (J.ikev2 (JCodec.struct (.skip ⟨""⟩ F) toP ofP) get put) := by
  intro P hl
  obtain ⟨K, kz, ko, ks⟩ := h P hl
  refine ⟨fun x => P [] (.str (toP x).1.val) ∧ K (toP x).2, ?_, fun x hx j hj => ?_, fun j x y hj ha hx hd => ?_⟩
  · simp only [J.ikev2, JCodec.struct, hP, JFields.zero]
    exact ⟨hl _ _ rfl, kz⟩
  · simp only [J.ikev2] at hj
    split at hj
    · simp only [Option.some.injEq] at hj
      subst hj
      rw [hg]
      exact all_str.2 hx.1
    · simp only [JCodec.struct, Option.map_eq_some_iff, JFields.enc] at hj
      obtain ⟨ms, hm, rfl⟩ := hj
      exact all_obj.2 (ko _ ms hx.2 hm)
  · cases j <;> simp only [J.ikev2, JCodec.struct, Option.some.injEq, reduceCtorEq, Option.map_eq_some_iff] at hd
    · exact hd ▸ hx
    · subst hd
      rw [hp]
      exact ⟨all_str.1 ha, hx.2⟩
    · rename_i ms
      obtain ⟨b, hd, rfl⟩ := hd
      have hj : Json.depthM ms + 1 < n := hj
      rw [hP]
      refine say_decMembers (n := n) (P := P) (K := fun b : BOMReference × β => P [] (.str b.1.val) ∧ K b.2) ?_ ms _ b (by omega) ha hx hd
      intro k j b b' hj ha hk hd
      simp only [JFields.set, Option.map_eq_some_iff] at hd
      obtain ⟨c, hd, rfl⟩ := hd
      exact ⟨hk.1, ks k j b.2 c hj ha hk.2 hd⟩

theorem rawMember_words {P : Words} {k : String} {j : Json} {ms : List (String × Json)} (h : All P (.obj ms))
    (hr : J.rawMember k ms = some j) : All (P.below k) j ∧ j.depth ≤ Json.depthM ms := by
  have hm : j ∈ selected k ms := by
    unfold J.rawMember at hr
    split at hr
    · cases hr
    · exact List.mem_of_getLast? hr
  simp only [selected, List.mem_map, List.mem_filter, decide_eq_true_eq] at hm
  obtain ⟨m, ⟨hm, hk⟩, rfl⟩ := hm
  exact ⟨below_congr hk ▸ all_obj.1 h m hm, depth_member hm⟩


