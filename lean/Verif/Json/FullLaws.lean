import Verif.Spec.JsonScant
import Verif.Json.KeepLaws

/-!
# What is read from a document that has all that is required is written with all that is required

GENERATED by `tools/gen_recomplete.py`; do not edit by hand.  `FullC n v s c`: from a document less than `n` deep that
is `Ample` for `s` at version `v` the codec `c` reads a value that, if `c` writes it, it writes with all members that
`s` requires at version `v`.  As in `Verif.Json.KeepLaws` there is an invariant of the values that decoding starts with.
-/

namespace Verif

open Json (foldKey)

set_option linter.unusedSectionVars false
set_option linter.unusedSimpArgs false

theorem BlankRef.scant : ∀ {s : Sch} {j : Json}, BlankRef s j → Scant s j := by
  intro s j h
  induction h with
  | here => exact .left .blank
  | elem hj _ ih => exact .elem hj ih
  | member hm hl _ ih => exact .member hm hl ih
  | left _ ih => exact .left ih
  | right _ ih => exact .right ih
  | since _ ih => exact .since ih

theorem Ample.sound {v : Int} {s : Sch} {j : Json} (h : Ample v s j) : Sound v s j :=
  ⟨h.declared, h.required, fun hb => h.ample hb.scant⟩

theorem Ample.elem {v : Int} {s : Sch} {js : List Json} (h : Ample v (.list s) (.arr js)) : ∀ j ∈ js, Ample v s j :=
  fun j hj => ⟨conforms_list.1 h.declared j hj, required_list.1 h.required j hj, fun hb => h.ample (.elem hj hb)⟩
theorem Ample.since {v u : Int} {s : Sch} {j : Json} (h : Ample v (.since u s) j) : Ample v s j :=
  ⟨(conforms_since.1 h.declared).2, required_since.1 h.required, fun hb => h.ample (.since hb)⟩
theorem Ample.alt {v : Int} {s t : Sch} {j : Json} (h : Ample v (.alt s t) j) : Ample v s j ∨ Ample v t j := by
  have hr := required_alt.1 h.required
  rcases conforms_alt.1 h.declared with hc | hc
  · exact .inl ⟨hc, hr.1, fun hb => h.ample (.left hb)⟩
  · exact .inr ⟨hc, hr.2, fun hb => h.ample (.right hb)⟩
theorem Ample.member {v : Int} {p : Place} {ms : List (String × Json)} (h : Ample v (.place p) (.obj ms)) :
    ∀ m ∈ ms, ∃ s, p.members.lookup m.1 = some s ∧ Ample v s m.2 := by
  intro m hm
  obtain ⟨s, hs, hc⟩ := conforms_place.1 h.declared m hm
  exact ⟨s, hs, hc, (required_place.1 h.required).2 m hm s hs, fun hb => h.ample (.member hm hs hb)⟩

/-- If `c` writes `x`, it writes it with what is required. -/
def OutR {α : Type} (v : Int) (s : Sch) (c : JCodec α) (x : α) : Prop := ∀ j, c.enc x = some j → HasRequired v s j

/-- What `c` reads from ample documents less than `n` deep is written with what is required. -/
def FullC {α : Type} (n : Nat) (v : Int) (s : Sch) (c : JCodec α) : Prop :=
  ∃ I : α → Prop, I c.zero ∧ ∀ j old x, j.depth < n → Ample v s j → I old → c.dec j old = some x → I x ∧ OutR v s c x

/-- The same for the fields of a struct.  The invariant knows the members that have been read: those in `kept` are
written then; those in `req` are written with what is required only then. -/
def FullF {β : Type} (n : Nat) (v : Int) (p : Place) (req kept : List String) (F : JFields β) : Prop :=
  ∃ K : β → (String → Prop) → Prop, K F.zero (fun _ => False) ∧
    (∀ b S T, (∀ k ∈ F.names, T k → S k) → K b S → K b T) ∧
    (∀ k s j b b' S, p.members.lookup k = some s → j.depth < n → Ample v s j → F.names.Nodup →
      fieldFor F.names k = some k → K b S → F.set k j b = some b' → K b' fun x => S x ∨ x = k) ∧
    (∀ b S, (∀ k ∈ req, S k) → K b S → (∀ k ∈ F.names, k ∈ kept → S k → F.Writes b k) ∧
      ∀ ms, F.enc b = some ms → ∀ m ∈ ms, ∀ s, p.members.lookup m.1 = some s → HasRequired v s m.2)

/-- The members that are always written. -/
def JFields.always : {β : Type} → JFields β → List String
  | _, .nil => []
  | _, .skip _ F => F.always
  | _, .field n oe _ F => if oe then F.always else n :: F.always

theorem always_writes : ∀ {β : Type} (F : JFields β) (b : β), ∀ k ∈ F.always, F.Writes b k
  | _, .nil, _, k, h => by simp [JFields.always] at h
  | _, .skip _ F, b, k, h => always_writes F b.2 k h
  | _, .field n oe c F, b, k, h => by
    simp only [JFields.always] at h
    cases oe with
    | true => exact .inr (always_writes F b.2 k h)
    | false =>
      simp only [Bool.false_eq_true, if_false, List.mem_cons] at h
      rcases h with rfl | h
      · exact .inl ⟨rfl, by simp⟩
      · exact .inr (always_writes F b.2 k h)

section
variable [FloatIO]

theorem FullC.mono {α : Type} {m n : Nat} {v : Int} {s : Sch} {c : JCodec α} (h : FullC n v s c) (hmn : m ≤ n) :
    FullC m v s c := by
  obtain ⟨I, hz, h⟩ := h
  exact ⟨I, hz, fun j old x hj => h j old x (by omega)⟩

theorem outR_of_comp {α : Type} {v : Int} {s : Sch} {c : JCodec α} {x : α} (h : CompC v s c x True) : OutR v s c x :=
  fun j hj => (h j hj).2 trivial

theorem outR_plain {α : Type} {v : Int} {s : Sch} {c : JCodec α} {x : α} (h : s.plain = true) : OutR v s c x :=
  fun j _ => required_plain h j

theorem full_of_comp {α : Type} {n : Nat} {v : Int} {s : Sch} {c : JCodec α} (h : ∀ x, CompC v s c x True) :
    FullC n v s c := ⟨fun _ => True, trivial, fun _ _ _ _ _ _ _ => ⟨trivial, outR_of_comp (h _)⟩⟩

theorem full_plain {α : Type} {n : Nat} {v : Int} {s : Sch} {c : JCodec α} (h : s.plain = true) :
    FullC n v s c := ⟨fun _ => True, trivial, fun _ _ _ _ _ _ _ => ⟨trivial, outR_plain h⟩⟩

theorem full_since {α : Type} {n : Nat} {v u : Int} {s : Sch} {c : JCodec α} (h : FullC n v s c) :
    FullC n v (.since u s) c := by
  obtain ⟨I, hz, h⟩ := h
  refine ⟨I, hz, fun j old x hj hs hi hd => ?_⟩
  obtain ⟨hi, ho⟩ := h j old x hj hs.since hi hd
  exact ⟨hi, fun j hj => .since (ho j hj)⟩

theorem full_option {α : Type} {n : Nat} {v : Int} {s : Sch} {c : JCodec α} (h : FullC n v s c) :
    FullC n v s (JCodec.option c) := by
  obtain ⟨I, hz, h⟩ := h
  refine ⟨fun o => ∀ a ∈ o, I a, by simp [JCodec.option], fun j old x hj hs hi hd => ?_⟩
  have hn : j ≠ .null := fun e => not_conforms_null (e ▸ hs.declared)
  rw [option_dec_ne_null c hn, Option.map_eq_some_iff] at hd
  obtain ⟨a, ha, rfl⟩ := hd
  have hi' : I (old.getD c.zero) := by
    cases old with
    | none => exact hz
    | some b => exact hi b rfl
  obtain ⟨hi, ho⟩ := h j _ a hj hs hi' ha
  exact ⟨fun b hb => by cases hb; exact hi, ho⟩

theorem decList_full {α : Type} {n : Nat} {v : Int} {s : Sch} {c : JCodec α} {I : α → Prop} (hz : I c.zero)
    (h : ∀ j old x, j.depth < n → Ample v s j → I old → c.dec j old = some x → I x ∧ OutR v s c x) :
    ∀ (js : List Json) (olds xs : List α), (∀ j ∈ js, j.depth < n ∧ Ample v s j) → (∀ a ∈ olds, I a) →
      JCodec.decList c js olds = some xs → ∀ a ∈ xs, I a ∧ OutR v s c a
  | [], _, xs, _, _, hd => by
    simp only [JCodec.decList, Option.some.injEq] at hd
    subst hd
    simp
  | j :: js, olds, xs, hj, ho, hd => by
    simp only [JCodec.decList] at hd
    have hi : I (olds.headD c.zero) := by
      cases olds with
      | nil => exact hz
      | cons a _ => exact ho a List.mem_cons_self
    cases hc : c.dec j (olds.headD c.zero) with
    | none => rw [hc] at hd; cases hd
    | some a =>
      simp only [hc, Option.map_eq_some_iff] at hd
      obtain ⟨ys, hy, rfl⟩ := hd
      have h1 := hj j List.mem_cons_self
      have ih := decList_full hz h js olds.tail ys (fun i hi => hj i (List.mem_cons_of_mem _ hi))
        (fun b hb => ho b (List.mem_of_mem_tail hb)) hy
      intro b hb
      cases hb with
      | head => exact h j _ a h1.1 h1.2 hi hc
      | tail _ hb => exact ih b hb

theorem outR_encList {α : Type} {v : Int} {s : Sch} {c : JCodec α} : ∀ {xs : List α} {js : List Json},
    (∀ a ∈ xs, OutR v s c a) → JCodec.encList c xs = some js → ∀ j ∈ js, HasRequired v s j
  | [], js, _, h => by
    simp only [JCodec.encList, Option.some.injEq] at h
    subst h
    simp
  | x :: xs, js, hx, h => by
    simp only [JCodec.encList] at h
    cases hc : c.enc x with
    | none => simp [hc] at h
    | some j =>
      simp only [hc, Option.map_eq_some_iff] at h
      obtain ⟨js', h', rfl⟩ := h
      have ih := outR_encList (fun a ha => hx a (List.mem_cons_of_mem _ ha)) h'
      intro i hi
      cases hi with
      | head => exact hx x List.mem_cons_self j hc
      | tail _ hi => exact ih i hi

theorem full_list {α : Type} {n : Nat} {v : Int} {s : Sch} {c : JCodec α} (h : FullC n v s c) :
    FullC n v (.list s) (JCodec.pslice c) := by
  obtain ⟨I, hz, h⟩ := h
  refine ⟨fun p => ∀ a ∈ p.elems, I a, by simp [JCodec.pslice, PSlice.elems], fun j old x hj hs hi hd => ?_⟩
  cases j with
  | arr js =>
    have hj : Json.depthL js + 1 < n := hj
    simp only [JCodec.pslice, Option.map_eq_some_iff] at hd
    obtain ⟨xs, hx, rfl⟩ := hd
    have := decList_full hz h js old.elems xs
      (fun j hm => ⟨by have := depth_elem hm; omega, hs.elem j hm⟩) hi hx
    refine ⟨fun a ha => (this a ha).1, fun j hj => ?_⟩
    simp only [JCodec.pslice, Option.map_eq_some_iff] at hj
    obtain ⟨js', hj, rfl⟩ := hj
    exact .list (outR_encList (fun a ha => (this a ha).2) hj)
  | null => exact absurd hs.declared not_conforms_null
  | bool _ => cases hs.declared
  | num _ => cases hs.declared
  | str _ => cases hs.declared
  | obj _ => cases hs.declared

/-! ### Structs -/

theorem fullF_nil {n : Nat} {v : Int} {p : Place} {req kept : List String} : FullF n v p req kept .nil := by
  refine ⟨fun _ _ => True, trivial, fun _ _ _ _ _ => trivial, fun _ _ _ _ _ _ _ _ _ _ _ _ _ => trivial, ?_⟩
  intro b S _ _
  refine ⟨by simp [JFields.names], fun ms h => ?_⟩
  simp only [JFields.enc, Option.some.injEq] at h
  subst h
  simp

theorem fullF_skip {n : Nat} {v : Int} {p : Place} {req kept : List String} {α β : Type} {z : α} {F : JFields β}
    (h : FullF n v p req kept F) : FullF n v p req kept (.skip z F) := by
  obtain ⟨K, hz, hw, hs, ho⟩ := h
  refine ⟨fun b S => K b.2 S, hz, fun b S T => hw b.2 S T, ?_, fun b S => ho b.2 S⟩
  intro k s j b b' S hl hj hc hn hf hk hd
  simp only [JFields.set, Option.map_eq_some_iff] at hd
  obtain ⟨c, hd, rfl⟩ := hd
  exact hs k s j b.2 c S hl hj hc hn hf hk hd

/-- A field with an invariant `P` of its value that may depend on whether its member has been read. -/
theorem fullF_cons {n : Nat} {v : Int} {p : Place} {req kept : List String} {α β : Type} {k : String} {oe : Bool}
    {c : JCodec α} {F : JFields β} (P : α → Prop → Prop) (hz : P c.zero False)
    (hw : ∀ a S T, (T → S) → P a S → P a T)
    (hs : ∀ s j old x S, p.members.lookup k = some s → j.depth < n → Ample v s j → P old S → c.dec j old = some x →
      P x True)
    (ho : ∀ a S, (k ∈ req → S) → P a S → (k ∈ kept → S → oe = true → c.empty a = false) ∧
      ((oe && c.empty a) = true ∨ ∀ j, c.enc a = some j → ∀ s, p.members.lookup k = some s → HasRequired v s j))
    (h : FullF n v p req kept F) : FullF n v p req kept (.field k oe c F) := by
  obtain ⟨K, kz, kw, ks, ko⟩ := h
  refine ⟨fun b S => P b.1 (S k) ∧ K b.2 S, ⟨hz, kz⟩, ?_, ?_, ?_⟩
  · intro b S T hT hk
    refine ⟨hw _ _ _ (hT k (by simp [JFields.names])) hk.1, kw _ S T (fun x hx => hT x ?_) hk.2⟩
    simp [JFields.names, hx]
  · intro m s j b b' S hl hj hc hn hf hk hd
    simp only [JFields.names, List.nodup_cons] at hn
    simp only [fieldFor, JFields.names, List.find?_cons] at hf
    by_cases e : foldKey m = foldKey k
    · simp only [e, decide_true, Option.some.injEq] at hf
      subst hf
      simp only [JFields.set, if_true, Option.map_eq_some_iff] at hd
      obtain ⟨x, hd, rfl⟩ := hd
      refine ⟨hw _ True _ (fun _ => trivial) (hs s j b.1 x (S k) hl hj hc hk.1 hd), kw _ S _ ?_ hk.2⟩
      rintro y hy (h | rfl)
      · exact h
      · exact absurd hy hn.1
    · simp only [e, decide_false] at hf
      simp only [JFields.set, e, if_false, Option.map_eq_some_iff] at hd
      obtain ⟨x, hd, rfl⟩ := hd
      refine ⟨hw _ (S k) _ ?_ hk.1, ks m s j b.2 x S hl hj hc hn.2 hf hk.2 hd⟩
      rintro (h | rfl)
      · exact h
      · exact absurd rfl e
  · intro b S hr hk
    obtain ⟨kr, ko⟩ := ko b.2 S hr hk.2
    obtain ⟨h0, h1⟩ := ho b.1 (S k) (hr k) hk.1
    refine ⟨?_, fun ms he => ?_⟩
    · intro m hm hkept hS
      simp only [JFields.names, List.mem_cons] at hm
      rcases hm with rfl | hm
      · exact .inl ⟨rfl, h0 hkept hS⟩
      · exact .inr (kr m hm hkept hS)
    simp only [JFields.enc] at he
    by_cases h2 : (oe && c.empty b.1) = true
    · rw [if_pos h2] at he
      exact ko ms he
    · rw [if_neg h2] at he
      cases hc : c.enc b.1 with
      | none => simp [hc] at he
      | some j =>
        simp only [hc, Option.map_eq_some_iff] at he
        obtain ⟨ms', hm, rfl⟩ := he
        intro m hm'
        cases hm' with
        | head => exact (h1.resolve_left h2) j hc
        | tail _ hm' => exact ko ms' hm m hm'

/-- What is read is not empty. -/
def Fills {α : Type} (v : Int) (s : Sch) (c : JCodec α) : Prop :=
  ∀ j old x, Ample v s j → c.dec j old = some x → c.empty x = false

theorem fills_option {α : Type} {v : Int} {s : Sch} {c : JCodec α} : Fills v s (JCodec.option c) := by
  intro j old x hs hd
  have hn : j ≠ .null := fun e => not_conforms_null (e ▸ hs.declared)
  rw [option_dec_ne_null c hn, Option.map_eq_some_iff] at hd
  obtain ⟨a, _, rfl⟩ := hd
  rfl
theorem fills_list {α : Type} {v : Int} {s : Sch} {c : JCodec α} : Fills v (.list s) (JCodec.pslice c) := by
  intro j old x hs hd
  obtain ⟨js, rfl⟩ := conforms_list_arr hs.declared
  simp only [JCodec.pslice, Option.map_eq_some_iff] at hd
  obtain ⟨a, _, rfl⟩ := hd
  rfl
theorem fills_string {v : Int} : Fills v .str JCodec.string := by
  intro j old x hs hd
  obtain ⟨t, rfl⟩ := conforms_str.1 hs.declared
  simp only [JCodec.string, Option.some.injEq] at hd
  subst hd
  rw [nem_string]
  rintro rfl
  exact hs.ample .blank
theorem fills_bomReference {v : Int} : Fills v .str J.bomReference := by
  intro j old x hs hd
  obtain ⟨t, rfl⟩ := conforms_str.1 hs.declared
  rw [nem_bomReference]
  rintro rfl
  simp [J.bomReference] at hd
  subst hd
  exact hs.ample .blank
theorem fills_since {α : Type} {v u : Int} {s : Sch} {c : JCodec α} (h : Fills v s c) : Fills v (.since u s) c :=
  fun j old x hs => h j old x hs.since

/-- A declared field that is left out, or written with what is required, also when its member has not been read. -/
theorem fullF_field {n : Nat} {v : Int} {p : Place} {req kept : List String} {α β : Type} {k : String} {oe : Bool}
    {c : JCodec α} {F : JFields β} (s : Sch) (hl : p.members.lookup k = some s) (h : FullC n v s c)
    (hz : (oe && c.empty c.zero) = true ∨ OutR v s c c.zero) (he : k ∈ kept → oe = true → Fills v s c)
    (hF : FullF n v p req kept F) : FullF n v p req kept (.field k oe c F) := by
  obtain ⟨I, iz, h⟩ := h
  refine fullF_cons (fun a S => I a ∧ ((oe && c.empty a) = true ∨ OutR v s c a) ∧
    (k ∈ kept → S → oe = true → c.empty a = false)) ⟨iz, hz, fun _ h => h.elim⟩
    (fun _ _ _ hT h => ⟨h.1, h.2.1, fun hk ht => h.2.2 hk (hT ht)⟩) ?_ ?_ hF
  · intro t j old x S ht hj hs hi hd
    rw [hl, Option.some.injEq] at ht
    subst ht
    obtain ⟨hi, ho⟩ := h j old x hj hs hi.1 hd
    exact ⟨hi, .inr ho, fun hk _ ho => he hk ho j old x hs hd⟩
  · rintro a S _ ⟨_, h, hw⟩
    refine ⟨hw, h.imp_right fun h j hj t ht => ?_⟩
    rw [hl, Option.some.injEq] at ht
    subst ht
    exact h j hj

/-- A declared field whose member is there. -/
theorem fullF_req {n : Nat} {v : Int} {p : Place} {req kept : List String} {α β : Type} {k : String} {oe : Bool}
    {c : JCodec α} {F : JFields β} (s : Sch) (hl : p.members.lookup k = some s) (h : FullC n v s c)
    (hk : k ∈ req) (he : k ∈ kept → oe = true → Fills v s c) (hF : FullF n v p req kept F) :
    FullF n v p req kept (.field k oe c F) := by
  obtain ⟨I, iz, h⟩ := h
  refine fullF_cons (fun a S => I a ∧ (S → OutR v s c a) ∧ (k ∈ kept → S → oe = true → c.empty a = false))
    ⟨iz, False.elim, fun _ h => h.elim⟩ (fun _ _ _ hT hp => ⟨hp.1, hp.2.1 ∘ hT, fun hk ht => hp.2.2 hk (hT ht)⟩) ?_ ?_ hF
  · intro t j old x S ht hj hs hi hd
    rw [hl, Option.some.injEq] at ht
    subst ht
    obtain ⟨hi, ho⟩ := h j old x hj hs hi.1 hd
    exact ⟨hi, fun _ => ho, fun hk _ ho => he hk ho j old x hs hd⟩
  · rintro a S hr ⟨_, h, hw⟩
    refine ⟨hw, .inr fun j hj t ht => ?_⟩
    rw [hl, Option.some.injEq] at ht
    subst ht
    exact h (hr hk) j hj

/-- A field that is not declared is not read. -/
theorem fullF_none {n : Nat} {v : Int} {p : Place} {req kept : List String} {α β : Type} {k : String} {oe : Bool}
    {c : JCodec α} {F : JFields β} (hl : p.members.lookup k = none) (hF : FullF n v p req kept F) :
    FullF n v p req kept (.field k oe c F) := by
  refine fullF_cons (fun a S => ¬ S) (fun h => h) (fun _ _ _ hT h t => h (hT t)) ?_ ?_ hF
  · intro t j old x S ht
    rw [hl] at ht; cases ht
  · intro a S _ h
    refine ⟨fun _ s => absurd s h, .inr fun j hj s hs => ?_⟩
    rw [hl] at hs; cases hs

theorem decMembers_full {n : Nat} {v : Int} {p : Place} {lost names : List String} {β : Type} {F : JFields β}
    {K : β → (String → Prop) → Prop} (hF : F.names = names) (hnd : names.Nodup)
    (hn : (p.members.all fun m => fieldFor names m.1 = if m.1 ∈ lost then none else some m.1) = true)
    (kw : ∀ b S T, (∀ k ∈ F.names, T k → S k) → K b S → K b T)
    (ks : ∀ k s j b b' S, p.members.lookup k = some s → j.depth < n → Ample v s j → F.names.Nodup →
      fieldFor F.names k = some k → K b S → F.set k j b = some b' → K b' fun x => S x ∨ x = k) :
    ∀ (ms : List (String × Json)) (b b' : β) (S : String → Prop),
      (∀ m ∈ ms, m.2.depth < n ∧ ∃ s, p.members.lookup m.1 = some s ∧ Ample v s m.2) → K b S →
      F.decMembers ms b = some b' → K b' fun x => S x ∨ ∃ m ∈ ms, m.1 = x
  | [], b, b', S, _, hk, hd => by
    simp only [JFields.decMembers, Option.some.injEq] at hd
    subst hd
    exact kw _ S _ (by simp) hk
  | m :: ms, b, b', S, hm, hk, hd => by
    rw [decMembers_cons] at hd
    cases he : F.set m.1 m.2 b with
    | none => simp [he] at hd
    | some c =>
      rw [he, Option.bind_some] at hd
      obtain ⟨hj, s, hl, hs⟩ := hm m List.mem_cons_self
      have hc : K c fun x => S x ∨ x = m.1 := by
        rw [List.all_eq_true] at hn
        have hf := hn _ (lookup_mem hl)
        simp only [decide_eq_true_eq] at hf
        by_cases e : m.1 ∈ lost
        · rw [if_pos e] at hf
          rw [set_unknown F b (by rw [hF]; exact hf), Option.some.injEq] at he
          subst he
          refine kw _ S _ ?_ hk
          rintro k hk (h | rfl)
          · exact h
          · rw [hF] at hk
            simp only [fieldFor, List.find?_eq_none, decide_eq_true_eq] at hf
            exact absurd rfl (hf _ hk)
        · rw [if_neg e] at hf
          exact ks m.1 s m.2 b c S hl hj hs (hF ▸ hnd) (by rw [hF]; exact hf) hk he
      have := decMembers_full hF hnd hn kw ks ms c b' _ (fun i hi => hm i (List.mem_cons_of_mem _ hi)) hc hd
      refine kw _ _ _ ?_ this
      rintro k _ (h | ⟨i, hi, rfl⟩)
      · exact .inl (.inl h)
      · cases hi with
        | head => exact .inl (.inr rfl)
        | tail _ hi => exact .inr ⟨i, hi, rfl⟩

/-- `lost` are the members without a field, `req` members that the documents have, `D` what else is known of them. -/
theorem full_structD {n : Nat} {v : Int} {p : Place} {σ β : Type} {F : JFields β} {toP : σ → β} {ofP : β → σ}
    (D : List (String × Json) → Prop)
    (req lost names kept : List String) (hP : ∀ b, toP (ofP b) = b)
    (hr : ∀ ms, Ample v (.place p) (.obj ms) → ∀ k ∈ req, ∃ m ∈ ms, m.1 = k)
    (hF : F.names = names) (hk : kept ⊆ names) (hnd : names.Nodup)
    (hn : (p.members.all fun m => fieldFor names m.1 = if m.1 ∈ lost then none else some m.1) = true)
    (hN : ∀ ms, Ample v (.place p) (.obj ms) → D ms → ∀ W : String → Prop, (∀ k ∈ kept, (∃ m ∈ ms, m.1 = k) → W k) →
      (∀ k ∈ F.always, W k) → p.Needs v W)
    (h : FullF n v p req kept F) : ∃ I : σ → Prop, I (ofP F.zero) ∧ ∀ ms old x, Json.depthM ms < n →
      Ample v (.place p) (.obj ms) → D ms → I old → (JCodec.struct F toP ofP).dec (.obj ms) old = some x →
        I x ∧ OutR v (.place p) (JCodec.struct F toP ofP) x := by
  obtain ⟨K, kz, kw, ks, ko⟩ := h
  refine ⟨fun x => K (toP x) fun _ => False, by simp only [hP]; exact kz, ?_⟩
  intro ms old x hj hs hD hi hd
  simp only [JCodec.struct, Option.map_eq_some_iff] at hd
  obtain ⟨b, hd, rfl⟩ := hd
  have hk' := decMembers_full hF hnd hn kw ks ms _ b _
    (fun m hm => ⟨by have := depth_member hm; omega, hs.member m hm⟩) hi hd
  refine ⟨?_, ?_⟩
  · show K (toP (ofP b)) _
    rw [hP]; exact kw _ _ _ (fun _ _ h => h.elim) hk'
  · intro j hj
    simp only [JCodec.struct, hP, Option.map_eq_some_iff] at hj
    obtain ⟨ms', hm, rfl⟩ := hj
    obtain ⟨h1, h2⟩ := ko b _ (fun k hk => .inr (hr ms hs k hk)) hk'
    rw [required_place]
    refine ⟨?_, h2 ms' hm⟩
    have e : (fun k => ∃ m ∈ ms', m.1 = k) = F.Writes b := funext fun k => propext (has_iff F b hm k)
    rw [e]
    exact hN ms hs hD _ (fun k hk' hm => h1 k (hF ▸ hk hk') hk' (.inr hm)) (always_writes F b)

theorem full_struct' {n : Nat} {v : Int} {p : Place} {σ β : Type} {F : JFields β} {toP : σ → β} {ofP : β → σ}
    (req lost names kept : List String) (hP : ∀ b, toP (ofP b) = b)
    (hr : ∀ ms, Ample v (.place p) (.obj ms) → ∀ k ∈ req, ∃ m ∈ ms, m.1 = k)
    (hF : F.names = names) (hk : kept ⊆ names) (hnd : names.Nodup)
    (hn : (p.members.all fun m => fieldFor names m.1 = if m.1 ∈ lost then none else some m.1) = true)
    (always : List String) (ha : F.always = always)
    (hN : ∀ has W : String → Prop, p.Needs v has → (∀ k ∈ kept, has k → W k) → (∀ k ∈ always, W k) → p.Needs v W)
    (h : FullF n v p req kept F) : FullC (n + 1) v (.place p) (JCodec.struct F toP ofP) := by
  obtain ⟨I, iz, h⟩ := full_structD (fun _ => True) req lost names kept hP hr hF hk hnd hn
    (fun ms hs _ W h1 h2 => hN _ W (required_place.1 hs.required).1 h1 (ha ▸ h2)) h
  refine ⟨I, iz, fun j old x hj hs hi hd => ?_⟩
  obtain ⟨ms, rfl⟩ := conforms_place_obj hs.declared
  have hj : Json.depthM ms + 1 < n + 1 := hj
  exact h ms old x (by omega) hs trivial hi hd

theorem full_struct {n : Nat} {v : Int} {p : Place} {σ β : Type} {F : JFields β} {toP : σ → β} {ofP : β → σ}
    (req lost names kept : List String) (hP : ∀ b, toP (ofP b) = b)
    (hr : ∀ ms, Ample v (.place p) (.obj ms) → ∀ k ∈ req, ∃ m ∈ ms, m.1 = k)
    (hF : F.names = names) (hk : kept ⊆ names) (hnd : names.Nodup)
    (hn : (p.members.all fun m => fieldFor names m.1 = if m.1 ∈ lost then none else some m.1) = true)
    (always : List String) (ha : F.always = always)
    (hN : ∀ has W : String → Prop, p.Needs v has → (∀ k ∈ kept, has k → W k) → (∀ k ∈ always, W k) → p.Needs v W)
    (h : FullF n v p req kept F) : FullC n v (.place p) (JCodec.struct F toP ofP) :=
  (full_struct' req lost names kept hP hr hF hk hnd hn always ha hN h).mono (Nat.le_succ n)

end

variable [FloatIO]


theorem full_advisory (n : Nat) (v : Int) : FullC n v (.place .advisory) J.advisory :=
  full_struct [] []
    ["title", "url"]
    ["title", "url"] (fun _ => rfl) (by simp) rfl
    (by simp) (by decide +kernel) (by decide +kernel) ["url"] rfl (fun has W h hw ha => by
      first
      | trivial
      | (simp only [Place.Needs] at h ⊢
         simp only [List.mem_cons, List.not_mem_nil, or_false, forall_eq_or_imp, forall_eq] at hw ha
         grind)) (
    fullF_field .str rfl (full_plain rfl) (.inl rfl) (fun _ _ => fills_string) <|
    fullF_field .str rfl (full_plain rfl) (.inr (outR_plain rfl)) (fun _ => nofun) <|
    fullF_nil)

theorem full_affectedVersions (n : Nat) (v : Int) : FullC n v (.place .affectedVersions) J.affectedVersions :=
  full_struct [] []
    ["version", "range", "status"]
    ["version", "range", "status"] (fun _ => rfl) (by simp) rfl
    (by simp) (by decide +kernel) (by decide +kernel) ["status"] rfl (fun has W h hw ha => by
      first
      | trivial
      | (simp only [Place.Needs] at h ⊢
         simp only [List.mem_cons, List.not_mem_nil, or_false, forall_eq_or_imp, forall_eq] at hw ha
         grind)) (
    fullF_field .str rfl (full_plain rfl) (.inl rfl) (fun _ _ => fills_string) <|
    fullF_field .str rfl (full_plain rfl) (.inl rfl) (fun _ _ => fills_string) <|
    fullF_field .str rfl (full_plain rfl) (.inr (outR_plain rfl)) (fun _ => nofun) <|
    fullF_nil)

theorem full_affects (n : Nat) (v : Int) : FullC n v (.place .vulnerabilityAffects) J.affects :=
  full_struct [] []
    ["ref", "versions"]
    ["ref", "versions"] (fun _ => rfl) (by simp) rfl
    (by simp) (by decide +kernel) (by decide +kernel) ["ref"] rfl (fun has W h hw ha => by
      first
      | trivial
      | (simp only [Place.Needs] at h ⊢
         simp only [List.mem_cons, List.not_mem_nil, or_false, forall_eq_or_imp, forall_eq] at hw ha
         grind)) (
    fullF_field .str rfl (full_plain rfl) (.inr (outR_plain rfl)) (fun _ => nofun) <|
    fullF_field (.list (.place .affectedVersions)) rfl (full_list (full_affectedVersions n v)) (.inl rfl) (fun _ _ => fills_list) <|
    fullF_nil)

theorem full_attachedText (n : Nat) (v : Int) : FullC n v (.place .attachment) J.attachedText :=
  full_struct [] []
    ["content", "contentType", "encoding"]
    ["content", "contentType", "encoding"] (fun _ => rfl) (by simp) rfl
    (by simp) (by decide +kernel) (by decide +kernel) ["content"] rfl (fun has W h hw ha => by
      first
      | trivial
      | (simp only [Place.Needs] at h ⊢
         simp only [List.mem_cons, List.not_mem_nil, or_false, forall_eq_or_imp, forall_eq] at hw ha
         grind)) (
    fullF_field .str rfl (full_plain rfl) (.inr (outR_plain rfl)) (fun _ => nofun) <|
    fullF_field .str rfl (full_plain rfl) (.inl rfl) (fun _ _ => fills_string) <|
    fullF_field .str rfl (full_plain rfl) (.inl rfl) (fun _ _ => fills_string) <|
    fullF_nil)

theorem full_property (n : Nat) (v : Int) : FullC n v (.place .property) J.property :=
  full_struct [] []
    ["name", "value"]
    ["name", "value"] (fun _ => rfl) (by simp) rfl
    (by simp) (by decide +kernel) (by decide +kernel) ["name", "value"] rfl (fun has W h hw ha => by
      first
      | trivial
      | (simp only [Place.Needs] at h ⊢
         simp only [List.mem_cons, List.not_mem_nil, or_false, forall_eq_or_imp, forall_eq] at hw ha
         grind)) (
    fullF_field .str rfl (full_plain rfl) (.inr (outR_plain rfl)) (fun _ => nofun) <|
    fullF_field .str rfl (full_plain rfl) (.inr (outR_plain rfl)) (fun _ => nofun) <|
    fullF_nil)

theorem full_componentDataContents (n : Nat) (v : Int) : FullC n v (.place .componentDataContents) J.componentDataContents :=
  full_struct [] []
    ["attachment", "url", "properties"]
    ["attachment", "url", "properties"] (fun _ => rfl) (by simp) rfl
    (by simp) (by decide +kernel) (by decide +kernel) [] rfl (fun has W h hw ha => by
      first
      | trivial
      | (simp only [Place.Needs] at h ⊢
         simp only [List.mem_cons, List.not_mem_nil, or_false, forall_eq_or_imp, forall_eq] at hw ha
         grind)) (
    fullF_field (.place .attachment) rfl (full_option (full_attachedText n v)) (.inl rfl) (fun _ _ => fills_option) <|
    fullF_field .str rfl (full_plain rfl) (.inl rfl) (fun _ _ => fills_string) <|
    fullF_field (.list (.place .property)) rfl (full_list (full_property n v)) (.inl rfl) (fun _ _ => fills_list) <|
    fullF_nil)

theorem full_componentDataGraphic (n : Nat) (v : Int) : FullC n v (.place .graphic) J.componentDataGraphic :=
  full_struct [] []
    ["name", "image"]
    ["name", "image"] (fun _ => rfl) (by simp) rfl
    (by simp) (by decide +kernel) (by decide +kernel) [] rfl (fun has W h hw ha => by
      first
      | trivial
      | (simp only [Place.Needs] at h ⊢
         simp only [List.mem_cons, List.not_mem_nil, or_false, forall_eq_or_imp, forall_eq] at hw ha
         grind)) (
    fullF_field .str rfl (full_plain rfl) (.inl rfl) (fun _ _ => fills_string) <|
    fullF_field (.place .attachment) rfl (full_option (full_attachedText n v)) (.inl rfl) (fun _ _ => fills_option) <|
    fullF_nil)

theorem full_componentDataGraphics (n : Nat) (v : Int) : FullC n v (.place .graphicsCollection) J.componentDataGraphics :=
  full_struct [] []
    ["description", "collection"]
    ["description", "collection"] (fun _ => rfl) (by simp) rfl
    (by simp) (by decide +kernel) (by decide +kernel) [] rfl (fun has W h hw ha => by
      first
      | trivial
      | (simp only [Place.Needs] at h ⊢
         simp only [List.mem_cons, List.not_mem_nil, or_false, forall_eq_or_imp, forall_eq] at hw ha
         grind)) (
    fullF_field .str rfl (full_plain rfl) (.inl rfl) (fun _ _ => fills_string) <|
    fullF_field (.list (.place .graphic)) rfl (full_list (full_componentDataGraphic n v)) (.inl rfl) (fun _ _ => fills_list) <|
    fullF_nil)

theorem full_organizationalContact (n : Nat) (v : Int) : FullC n v (.place .organizationalContact) J.organizationalContact :=
  full_struct [] []
    ["bom-ref", "name", "email", "phone"]
    ["bom-ref", "name", "email", "phone"] (fun _ => rfl) (by simp) rfl
    (by simp) (by decide +kernel) (by decide +kernel) [] rfl (fun has W h hw ha => by
      first
      | trivial
      | (simp only [Place.Needs] at h ⊢
         simp only [List.mem_cons, List.not_mem_nil, or_false, forall_eq_or_imp, forall_eq] at hw ha
         grind)) (
    fullF_field (.since SpecVersion1_5 .str) rfl (full_plain rfl) (.inl rfl) (fun _ _ => fills_since (fills_string)) <|
    fullF_field .str rfl (full_plain rfl) (.inl rfl) (fun _ _ => fills_string) <|
    fullF_field .str rfl (full_plain rfl) (.inl rfl) (fun _ _ => fills_string) <|
    fullF_field .str rfl (full_plain rfl) (.inl rfl) (fun _ _ => fills_string) <|
    fullF_nil)

theorem full_postalAddress (n : Nat) (v : Int) : FullC n v (.place .postalAddress) J.postalAddress :=
  full_struct [] []
    ["bom-ref", "country", "region", "locality", "postOfficeBoxNumber", "postalCode", "streetAddress"]
    ["bom-ref", "country", "region", "locality", "postOfficeBoxNumber", "postalCode", "streetAddress"] (fun _ => rfl) (by simp) rfl
    (by simp) (by decide +kernel) (by decide +kernel) [] rfl (fun has W h hw ha => by
      first
      | trivial
      | (simp only [Place.Needs] at h ⊢
         simp only [List.mem_cons, List.not_mem_nil, or_false, forall_eq_or_imp, forall_eq] at hw ha
         grind)) (
    fullF_field .str rfl (full_plain rfl) (.inl rfl) (fun _ _ => fills_string) <|
    fullF_field .str rfl (full_plain rfl) (.inl rfl) (fun _ _ => fills_string) <|
    fullF_field .str rfl (full_plain rfl) (.inl rfl) (fun _ _ => fills_string) <|
    fullF_field .str rfl (full_plain rfl) (.inl rfl) (fun _ _ => fills_string) <|
    fullF_field .str rfl (full_plain rfl) (.inl rfl) (fun _ _ => fills_string) <|
    fullF_field .str rfl (full_plain rfl) (.inl rfl) (fun _ _ => fills_string) <|
    fullF_field .str rfl (full_plain rfl) (.inl rfl) (fun _ _ => fills_string) <|
    fullF_nil)

theorem full_organizationalEntity (n : Nat) (v : Int) : FullC n v (.place .organizationalEntity) J.organizationalEntity :=
  full_struct [] []
    ["bom-ref", "name", "address", "url", "contact"]
    ["bom-ref", "name", "address", "url", "contact"] (fun _ => rfl) (by simp) rfl
    (by simp) (by decide +kernel) (by decide +kernel) ["name"] rfl (fun has W h hw ha => by
      first
      | trivial
      | (simp only [Place.Needs] at h ⊢
         simp only [List.mem_cons, List.not_mem_nil, or_false, forall_eq_or_imp, forall_eq] at hw ha
         grind)) (
    fullF_field (.since SpecVersion1_5 .str) rfl (full_plain rfl) (.inl rfl) (fun _ _ => fills_since (fills_string)) <|
    fullF_field .str rfl (full_plain rfl) (.inr (outR_plain rfl)) (fun _ => nofun) <|
    fullF_field (.since SpecVersion1_6 (.place .postalAddress)) rfl (full_since (full_option (full_postalAddress n v))) (.inl rfl) (fun _ _ => fills_since (fills_option)) <|
    fullF_field (.list .str) rfl (full_plain rfl) (.inl rfl) (fun _ _ => fills_list) <|
    fullF_field (.list (.place .organizationalContact)) rfl (full_list (full_organizationalContact n v)) (.inl rfl) (fun _ _ => fills_list) <|
    fullF_nil)

theorem full_componentDataGovernanceResponsibleParty (n : Nat) (v : Int) : FullC n v (.place .dataGovernanceResponsibleParty) J.componentDataGovernanceResponsibleParty :=
  full_struct [] []
    ["organization", "contact"]
    ["organization", "contact"] (fun _ => rfl) (by simp) rfl
    (by simp) (by decide +kernel) (by decide +kernel) [] rfl (fun has W h hw ha => by
      first
      | trivial
      | (simp only [Place.Needs] at h ⊢
         simp only [List.mem_cons, List.not_mem_nil, or_false, forall_eq_or_imp, forall_eq] at hw ha
         grind)) (
    fullF_field (.place .organizationalEntity) rfl (full_option (full_organizationalEntity n v)) (.inl rfl) (fun _ _ => fills_option) <|
    fullF_field (.place .organizationalContact) rfl (full_option (full_organizationalContact n v)) (.inl rfl) (fun _ _ => fills_option) <|
    fullF_nil)

theorem full_dataGovernance (n : Nat) (v : Int) : FullC n v (.place .dataGovernance) J.dataGovernance :=
  full_struct [] []
    ["custodians", "stewards", "owners"]
    ["custodians", "stewards", "owners"] (fun _ => rfl) (by simp) rfl
    (by simp) (by decide +kernel) (by decide +kernel) [] rfl (fun has W h hw ha => by
      first
      | trivial
      | (simp only [Place.Needs] at h ⊢
         simp only [List.mem_cons, List.not_mem_nil, or_false, forall_eq_or_imp, forall_eq] at hw ha
         grind)) (
    fullF_field (.list (.place .dataGovernanceResponsibleParty)) rfl (full_list (full_componentDataGovernanceResponsibleParty n v)) (.inl rfl) (fun _ _ => fills_list) <|
    fullF_field (.list (.place .dataGovernanceResponsibleParty)) rfl (full_list (full_componentDataGovernanceResponsibleParty n v)) (.inl rfl) (fun _ _ => fills_list) <|
    fullF_field (.list (.place .dataGovernanceResponsibleParty)) rfl (full_list (full_componentDataGovernanceResponsibleParty n v)) (.inl rfl) (fun _ _ => fills_list) <|
    fullF_nil)

theorem full_componentData (n : Nat) (v : Int) : FullC n v (.place .componentData) J.componentData :=
  full_struct [] []
    ["bom-ref", "type", "name", "contents", "classification", "sensitiveData", "graphics", "description", "governance"]
    ["bom-ref", "type", "name", "contents", "classification", "sensitiveData", "graphics", "description", "governance"] (fun _ => rfl) (by simp) rfl
    (by simp) (by decide +kernel) (by decide +kernel) [] rfl (fun has W h hw ha => by
      first
      | trivial
      | (simp only [Place.Needs] at h ⊢
         simp only [List.mem_cons, List.not_mem_nil, or_false, forall_eq_or_imp, forall_eq] at hw ha
         grind)) (
    fullF_field .str rfl (full_plain rfl) (.inl rfl) (fun _ _ => fills_string) <|
    fullF_field .str rfl (full_plain rfl) (.inl rfl) (fun _ _ => fills_string) <|
    fullF_field .str rfl (full_plain rfl) (.inl rfl) (fun _ _ => fills_string) <|
    fullF_field (.place .componentDataContents) rfl (full_option (full_componentDataContents n v)) (.inl rfl) (fun _ _ => fills_option) <|
    fullF_field .str rfl (full_plain rfl) (.inl rfl) (fun _ _ => fills_string) <|
    fullF_field (.list .str) rfl (full_plain rfl) (.inl rfl) (fun _ _ => fills_list) <|
    fullF_field (.place .graphicsCollection) rfl (full_option (full_componentDataGraphics n v)) (.inl rfl) (fun _ _ => fills_option) <|
    fullF_field .str rfl (full_plain rfl) (.inl rfl) (fun _ _ => fills_string) <|
    fullF_field (.place .dataGovernance) rfl (full_option (full_dataGovernance n v)) (.inl rfl) (fun _ _ => fills_option) <|
    fullF_nil)

theorem full_componentData_modelDataset (n : Nat) (v : Int) : FullC n v (.place .modelDataset) J.componentData :=
  full_struct [] ["ref"]
    ["bom-ref", "type", "name", "contents", "classification", "sensitiveData", "graphics", "description", "governance"]
    ["bom-ref", "type", "name", "contents", "classification", "sensitiveData", "graphics", "description", "governance"] (fun _ => rfl) (by simp) rfl
    (by simp) (by decide +kernel) (by decide +kernel) [] rfl (fun has W h hw ha => by
      first
      | trivial
      | (simp only [Place.Needs] at h ⊢
         simp only [List.mem_cons, List.not_mem_nil, or_false, forall_eq_or_imp, forall_eq] at hw ha
         grind)) (
    fullF_field .str rfl (full_plain rfl) (.inl rfl) (fun _ _ => fills_string) <|
    fullF_field .str rfl (full_plain rfl) (.inl rfl) (fun _ _ => fills_string) <|
    fullF_field .str rfl (full_plain rfl) (.inl rfl) (fun _ _ => fills_string) <|
    fullF_field (.place .componentDataContents) rfl (full_option (full_componentDataContents n v)) (.inl rfl) (fun _ _ => fills_option) <|
    fullF_field .str rfl (full_plain rfl) (.inl rfl) (fun _ _ => fills_string) <|
    fullF_field (.list .str) rfl (full_plain rfl) (.inl rfl) (fun _ _ => fills_list) <|
    fullF_field (.place .graphicsCollection) rfl (full_option (full_componentDataGraphics n v)) (.inl rfl) (fun _ _ => fills_option) <|
    fullF_field .str rfl (full_plain rfl) (.inl rfl) (fun _ _ => fills_string) <|
    fullF_field (.place .dataGovernance) rfl (full_option (full_dataGovernance n v)) (.inl rfl) (fun _ _ => fills_option) <|
    fullF_nil)

theorem full_hash (n : Nat) (v : Int) : FullC n v (.place .hash) J.hash :=
  full_struct [] []
    ["alg", "content"]
    ["alg", "content"] (fun _ => rfl) (by simp) rfl
    (by simp) (by decide +kernel) (by decide +kernel) ["alg", "content"] rfl (fun has W h hw ha => by
      first
      | trivial
      | (simp only [Place.Needs] at h ⊢
         simp only [List.mem_cons, List.not_mem_nil, or_false, forall_eq_or_imp, forall_eq] at hw ha
         grind)) (
    fullF_field .str rfl (full_plain rfl) (.inr (outR_plain rfl)) (fun _ => nofun) <|
    fullF_field .str rfl (full_plain rfl) (.inr (outR_plain rfl)) (fun _ => nofun) <|
    fullF_nil)

theorem full_relatedCryptographicAsset (n : Nat) (v : Int) : FullC n v (.place .relatedCryptographicAsset) J.relatedCryptographicAsset :=
  full_struct [] []
    ["type", "ref"]
    ["type", "ref"] (fun _ => rfl) (by simp) rfl
    (by simp) (by decide +kernel) (by decide +kernel) [] rfl (fun has W h hw ha => by
      first
      | trivial
      | (simp only [Place.Needs] at h ⊢
         simp only [List.mem_cons, List.not_mem_nil, or_false, forall_eq_or_imp, forall_eq] at hw ha
         grind)) (
    fullF_field .str rfl (full_plain rfl) (.inl rfl) (fun _ _ => fills_string) <|
    fullF_field .str rfl (full_plain rfl) (.inl rfl) (fun _ _ => fills_string) <|
    fullF_nil)

theorem full_predefinedCertificateState (n : Nat) (v : Int) : FullC n v (.place .certificateState) J.predefinedCertificateState :=
  full_struct [] ["name", "description"]
    ["state", "reason"]
    ["state", "reason"] (fun _ => rfl) (by simp) rfl
    (by simp) (by decide +kernel) (by decide +kernel) ["state"] rfl (fun has W h hw ha => by
      first
      | trivial
      | (simp only [Place.Needs] at h ⊢
         simp only [List.mem_cons, List.not_mem_nil, or_false, forall_eq_or_imp, forall_eq] at hw ha
         grind)) (
    fullF_field .str rfl (full_plain rfl) (.inr (outR_plain rfl)) (fun _ => nofun) <|
    fullF_field .str rfl (full_plain rfl) (.inl rfl) (fun _ _ => fills_string) <|
    fullF_nil)

theorem full_customCertificateState (n : Nat) (v : Int) : FullC n v (.place .certificateState) J.customCertificateState :=
  full_struct [] ["state"]
    ["name", "description", "reason"]
    ["name", "description", "reason"] (fun _ => rfl) (by simp) rfl
    (by simp) (by decide +kernel) (by decide +kernel) ["name"] rfl (fun has W h hw ha => by
      first
      | trivial
      | (simp only [Place.Needs] at h ⊢
         simp only [List.mem_cons, List.not_mem_nil, or_false, forall_eq_or_imp, forall_eq] at hw ha
         grind)) (
    fullF_field .str rfl (full_plain rfl) (.inr (outR_plain rfl)) (fun _ => nofun) <|
    fullF_field .str rfl (full_plain rfl) (.inl rfl) (fun _ _ => fills_string) <|
    fullF_field .str rfl (full_plain rfl) (.inl rfl) (fun _ _ => fills_string) <|
    fullF_nil)

theorem full_certificateState (n : Nat) (v : Int) : FullC n v (.place .certificateState) J.certificateState := by
  refine ⟨fun _ => True, trivial, fun j old x _ hs _ hd => ⟨trivial, fun i hi => (comp_certificateState v x i hi).2 ?_⟩⟩
  simp only [J.certificateState] at hd
  split at hd
  · cases hd
  · split at hd <;> split at hd
    · cases hd
    · simp only [Option.some.injEq] at hd; subst hd; simp [CertificateState.Complete]
    · cases hd
    · simp only [Option.some.injEq] at hd; subst hd; simp [CertificateState.Complete]



theorem full_customCertificateExtension (n : Nat) (v : Int) : FullC n v (.place .certificateExtension) J.customCertificateExtension :=
  full_struct [] ["commonExtensionName", "commonExtensionValue"]
    ["customExtensionName", "customExtensionValue"]
    ["customExtensionName", "customExtensionValue"] (fun _ => rfl) (by simp) rfl
    (by simp) (by decide +kernel) (by decide +kernel) ["customExtensionName"] rfl (fun has W h hw ha => by
      first
      | trivial
      | (simp only [Place.Needs] at h ⊢
         simp only [List.mem_cons, List.not_mem_nil, or_false, forall_eq_or_imp, forall_eq] at hw ha
         grind)) (
    fullF_field .str rfl (full_plain rfl) (.inr (outR_plain rfl)) (fun _ => nofun) <|
    fullF_field .str rfl (full_plain rfl) (.inl rfl) (fun _ _ => fills_string) <|
    fullF_nil)

theorem selected_undeclared {v : Int} {p : Place} {ms : List (String × Json)} {k : String}
    (hc : Conforms v (.place p) (.obj ms)) (hk : ∀ m ∈ ms, m.1 ≠ k)
    (hp : (p.members.all fun m => decide (foldKey m.1 = foldKey k → m.1 = k)) = true) : selected k ms = [] := by
  rw [selected_eq_nil]
  intro m hm e
  obtain ⟨s, hs, _⟩ := conforms_place.1 hc m hm
  rw [List.all_eq_true] at hp
  have := hp _ (lookup_mem hs)
  simp only [decide_eq_true_eq] at this
  exact hk m hm (this e)

theorem full_certificateExtension (n : Nat) (v : Int) :
    FullC n v (.place .certificateExtension) J.certificateExtension := by
  obtain ⟨I, hz, h⟩ := full_structD (n := n) (v := v) (p := .certificateExtension) (F := J.commonCertificateExtensionFields)
    (toP := CommonCertificateExtension.toP) (ofP := CommonCertificateExtension.ofP)
    (fun ms => ∃ m ∈ ms, m.1 = "commonExtensionName") [] ["customExtensionName", "customExtensionValue"]
    ["commonExtensionName", "commonExtensionValue"] ["commonExtensionName", "commonExtensionValue"] (fun _ => rfl) (by simp)
    rfl (by simp) (by decide +kernel) (by decide +kernel)
    (fun ms hs hD W hw ha => by
      rcases (required_place.1 hs.required).1 with h | h
      · exact .inl ⟨hw _ (by simp) h.1, hw _ (by simp) h.2⟩
      · exact absurd (.mixed hD h) hs.ample)
    (fullF_field .str rfl (full_plain rfl) (.inr (outR_plain rfl)) (fun _ => nofun) <|
    fullF_field .str rfl (full_plain rfl) (.inl rfl) (fun _ _ => fills_string) fullF_nil)
  let A : CertificateExtension → Prop := fun x =>
    ∀ y ∈ x.common, OutR v (.place .certificateExtension) J.commonCertificateExtension y
  refine ⟨A, (by intro y hy; cases hy), fun j old x hj hs hi hd => ?_⟩
  obtain ⟨ms, rfl⟩ := conforms_place_obj hs.declared
  have hj : Json.depthM ms + 1 < n := hj
  suffices h : A x ∧ (x.common ≠ none ∨ x.custom ≠ none) by
    refine ⟨h.1, fun i hi => ?_⟩
    obtain ⟨h1, h2⟩ := h
    obtain ⟨a, b⟩ := x
    cases a <;> cases b <;> simp only [J.certificateExtension] at hi
    · simp at h2
    · exact outR_of_comp (comp_customCertificateExtension v _) i hi
    · exact h1 _ rfl i hi
    · cases hi
  simp only [J.certificateExtension] at hd
  cases hp : (J.peek "commonExtensionName").dec (.obj ms) "" with
  | none => rw [hp] at hd; cases hd
  | some s =>
    simp only [hp] at hd
    split at hd
    · rename_i hne
      split at hd
      · cases hd
      · rename_i y he
        simp only [Option.some.injEq] at hd
        subst hd
        refine ⟨?_, by simp⟩
        intro z hz'
        cases hz'
        refine (h ms _ y (by omega) hs ?_ hz he).2
        refine Classical.byContradiction fun hn => ?_
        rw [peek_obj, selected_undeclared hs.declared (fun m hm e => hn ⟨m, hm, e⟩) (by decide +kernel)] at hp
        simp only [JCodec.decAll, Option.some.injEq] at hp
        exact hne hp.symm
    · split at hd
      · cases hd
      · simp only [Option.some.injEq] at hd
        subst hd
        exact ⟨hi, by simp⟩


theorem full_certificateProperties (n : Nat) (v : Int) : FullC n v (.place .certificateProperties) J.certificateProperties :=
  full_struct [] []
    ["serialNumber", "subjectName", "issuerName", "notValidBefore", "notValidAfter", "signatureAlgorithmRef", "subjectPublicKeyRef", "certificateFormat", "certificateExtension", "certificateFileExtension", "fingerprint", "certificateState", "certificateExtensions", "relatedCryptographicAssets", "creationDate", "activationDate", "deactivationDate", "revocationDate", "destructionDate"]
    ["serialNumber", "subjectName", "issuerName", "notValidBefore", "notValidAfter", "signatureAlgorithmRef", "subjectPublicKeyRef", "certificateFormat", "certificateExtension", "certificateFileExtension", "fingerprint", "certificateState", "certificateExtensions", "relatedCryptographicAssets", "creationDate", "activationDate", "deactivationDate", "revocationDate", "destructionDate"] (fun _ => rfl) (by simp) rfl
    (by simp) (by decide +kernel) (by decide +kernel) [] rfl (fun has W h hw ha => by
      first
      | trivial
      | (simp only [Place.Needs] at h ⊢
         simp only [List.mem_cons, List.not_mem_nil, or_false, forall_eq_or_imp, forall_eq] at hw ha
         grind)) (
    fullF_field (.since SpecVersion1_7 .str) rfl (full_plain rfl) (.inl rfl) (fun _ _ => fills_since (fills_string)) <|
    fullF_field .str rfl (full_plain rfl) (.inl rfl) (fun _ _ => fills_string) <|
    fullF_field .str rfl (full_plain rfl) (.inl rfl) (fun _ _ => fills_string) <|
    fullF_field .str rfl (full_plain rfl) (.inl rfl) (fun _ _ => fills_string) <|
    fullF_field .str rfl (full_plain rfl) (.inl rfl) (fun _ _ => fills_string) <|
    fullF_field .str rfl (full_plain rfl) (.inl rfl) (fun _ _ => fills_bomReference) <|
    fullF_field .str rfl (full_plain rfl) (.inl rfl) (fun _ _ => fills_bomReference) <|
    fullF_field .str rfl (full_plain rfl) (.inl rfl) (fun _ _ => fills_string) <|
    fullF_field .str rfl (full_plain rfl) (.inl rfl) (fun _ _ => fills_string) <|
    fullF_field (.since SpecVersion1_7 .str) rfl (full_plain rfl) (.inl rfl) (fun _ _ => fills_since (fills_string)) <|
    fullF_field (.since SpecVersion1_7 (.place .hash)) rfl (full_since (full_option (full_hash n v))) (.inl rfl) (fun _ _ => fills_since (fills_option)) <|
    fullF_field (.since SpecVersion1_7 (.list (.place .certificateState))) rfl (full_since (full_list (full_certificateState n v))) (.inl rfl) (fun _ _ => fills_since (fills_list)) <|
    fullF_field (.since SpecVersion1_7 (.list (.place .certificateExtension))) rfl (full_since (full_list (full_certificateExtension n v))) (.inl rfl) (fun _ _ => fills_since (fills_list)) <|
    fullF_field (.since SpecVersion1_7 (.list (.place .relatedCryptographicAsset))) rfl (full_since (full_list (full_relatedCryptographicAsset n v))) (.inl rfl) (fun _ _ => fills_since (fills_list)) <|
    fullF_field (.since SpecVersion1_7 .str) rfl (full_plain rfl) (.inl rfl) (fun _ _ => fills_since (fills_string)) <|
    fullF_field (.since SpecVersion1_7 .str) rfl (full_plain rfl) (.inl rfl) (fun _ _ => fills_since (fills_string)) <|
    fullF_field (.since SpecVersion1_7 .str) rfl (full_plain rfl) (.inl rfl) (fun _ _ => fills_since (fills_string)) <|
    fullF_field (.since SpecVersion1_7 .str) rfl (full_plain rfl) (.inl rfl) (fun _ _ => fills_since (fills_string)) <|
    fullF_field (.since SpecVersion1_7 .str) rfl (full_plain rfl) (.inl rfl) (fun _ _ => fills_since (fills_string)) <|
    fullF_nil)

theorem full_cryptoAlgorithmProperties (n : Nat) (v : Int) : FullC n v (.place .algorithmProperties) J.cryptoAlgorithmProperties :=
  full_struct [] []
    ["primitive", "parameterSetIdentifier", "algorithmFamily", "curve", "ellipticCurve", "executionEnvironment", "implementationPlatform", "certificationLevel", "mode", "padding", "cryptoFunctions", "classicalSecurityLevel", "nistQuantumSecurityLevel"]
    ["primitive", "parameterSetIdentifier", "algorithmFamily", "curve", "ellipticCurve", "executionEnvironment", "implementationPlatform", "certificationLevel", "mode", "padding", "cryptoFunctions", "classicalSecurityLevel", "nistQuantumSecurityLevel"] (fun _ => rfl) (by simp) rfl
    (by simp) (by decide +kernel) (by decide +kernel) [] rfl (fun has W h hw ha => by
      first
      | trivial
      | (simp only [Place.Needs] at h ⊢
         simp only [List.mem_cons, List.not_mem_nil, or_false, forall_eq_or_imp, forall_eq] at hw ha
         grind)) (
    fullF_field .str rfl (full_plain rfl) (.inl rfl) (fun _ _ => fills_string) <|
    fullF_field .str rfl (full_plain rfl) (.inl rfl) (fun _ _ => fills_string) <|
    fullF_field (.since SpecVersion1_7 .str) rfl (full_plain rfl) (.inl rfl) (fun _ _ => fills_since (fills_string)) <|
    fullF_field .str rfl (full_plain rfl) (.inl rfl) (fun _ _ => fills_string) <|
    fullF_field (.since SpecVersion1_7 .str) rfl (full_plain rfl) (.inl rfl) (fun _ _ => fills_since (fills_string)) <|
    fullF_field .str rfl (full_plain rfl) (.inl rfl) (fun _ _ => fills_string) <|
    fullF_field .str rfl (full_plain rfl) (.inl rfl) (fun _ _ => fills_string) <|
    fullF_field (.list .str) rfl (full_plain rfl) (.inl rfl) (fun _ _ => fills_list) <|
    fullF_field .str rfl (full_plain rfl) (.inl rfl) (fun _ _ => fills_string) <|
    fullF_field .str rfl (full_plain rfl) (.inl rfl) (fun _ _ => fills_string) <|
    fullF_field (.list .str) rfl (full_plain rfl) (.inl rfl) (fun _ _ => fills_list) <|
    fullF_field .int rfl (full_plain rfl) (.inl rfl) (fun _ _ => fills_option) <|
    fullF_field .int rfl (full_plain rfl) (.inl rfl) (fun _ _ => fills_option) <|
    fullF_nil)

theorem full_cipherSuite (n : Nat) (v : Int) : FullC n v (.place .cipherSuite) J.cipherSuite :=
  full_struct [] []
    ["name", "algorithms", "identifiers", "tlsGroups", "tlsSignatureSchemes"]
    ["name", "algorithms", "identifiers", "tlsGroups", "tlsSignatureSchemes"] (fun _ => rfl) (by simp) rfl
    (by simp) (by decide +kernel) (by decide +kernel) [] rfl (fun has W h hw ha => by
      first
      | trivial
      | (simp only [Place.Needs] at h ⊢
         simp only [List.mem_cons, List.not_mem_nil, or_false, forall_eq_or_imp, forall_eq] at hw ha
         grind)) (
    fullF_field .str rfl (full_plain rfl) (.inl rfl) (fun _ _ => fills_string) <|
    fullF_field (.list .str) rfl (full_plain rfl) (.inl rfl) (fun _ _ => fills_list) <|
    fullF_field (.list .str) rfl (full_plain rfl) (.inl rfl) (fun _ _ => fills_list) <|
    fullF_field (.since SpecVersion1_7 (.list .str)) rfl (full_plain rfl) (.inl rfl) (fun _ _ => fills_since (fills_list)) <|
    fullF_field (.since SpecVersion1_7 (.list .str)) rfl (full_plain rfl) (.inl rfl) (fun _ _ => fills_since (fills_list)) <|
    fullF_nil)

theorem full_ikev2Auth (n : Nat) (v : Int) : FullC n v (.alt .str (.since SpecVersion1_7 (.place .ikeV2Auth))) J.ikev2Auth :=
  full_of_comp (comp_ikev2Auth v)

theorem full_ikev2Enc (n : Nat) (v : Int) : FullC n v (.alt .str (.since SpecVersion1_7 (.place .ikeV2Enc))) J.ikev2Enc :=
  full_of_comp (comp_ikev2Enc v)

theorem full_ikev2Integ (n : Nat) (v : Int) : FullC n v (.alt .str (.since SpecVersion1_7 (.place .ikeV2Integ))) J.ikev2Integ :=
  full_of_comp (comp_ikev2Integ v)

theorem full_ikev2Ke (n : Nat) (v : Int) : FullC n v (.alt .str (.since SpecVersion1_7 (.place .ikeV2Ke))) J.ikev2Ke :=
  full_of_comp (comp_ikev2Ke v)

theorem full_ikev2Prf (n : Nat) (v : Int) : FullC n v (.alt .str (.since SpecVersion1_7 (.place .ikeV2Prf))) J.ikev2Prf :=
  full_of_comp (comp_ikev2Prf v)

theorem full_ikev2TransformTypes (n : Nat) (v : Int) : FullC n v (.place .ikev2TransformTypes) J.ikev2TransformTypes :=
  full_struct [] []
    ["encr", "prf", "integ", "ke", "esn", "auth"]
    ["encr", "prf", "integ", "ke", "esn", "auth"] (fun _ => rfl) (by simp) rfl
    (by simp) (by decide +kernel) (by decide +kernel) ["esn"] rfl (fun has W h hw ha => by
      first
      | trivial
      | (simp only [Place.Needs] at h ⊢
         simp only [List.mem_cons, List.not_mem_nil, or_false, forall_eq_or_imp, forall_eq] at hw ha
         grind)) (
    fullF_field (.list (.alt .str (.since SpecVersion1_7 (.place .ikeV2Enc)))) rfl (full_list (full_ikev2Enc n v)) (.inl rfl) (fun _ _ => fills_list) <|
    fullF_field (.list (.alt .str (.since SpecVersion1_7 (.place .ikeV2Prf)))) rfl (full_list (full_ikev2Prf n v)) (.inl rfl) (fun _ _ => fills_list) <|
    fullF_field (.list (.alt .str (.since SpecVersion1_7 (.place .ikeV2Integ)))) rfl (full_list (full_ikev2Integ n v)) (.inl rfl) (fun _ _ => fills_list) <|
    fullF_field (.list (.alt .str (.since SpecVersion1_7 (.place .ikeV2Ke)))) rfl (full_list (full_ikev2Ke n v)) (.inl rfl) (fun _ _ => fills_list) <|
    fullF_field .bool rfl (full_plain rfl) (.inr (outR_plain rfl)) (fun _ => nofun) <|
    fullF_field (.list (.alt .str (.since SpecVersion1_7 (.place .ikeV2Auth)))) rfl (full_list (full_ikev2Auth n v)) (.inl rfl) (fun _ _ => fills_list) <|
    fullF_nil)

theorem full_cryptoProtocolProperties (n : Nat) (v : Int) : FullC n v (.place .protocolProperties) J.cryptoProtocolProperties :=
  full_struct [] []
    ["type", "version", "cipherSuites", "ikev2TransformTypes", "cryptoRefArray", "relatedCryptographicAssets"]
    ["type", "version", "cipherSuites", "ikev2TransformTypes", "cryptoRefArray", "relatedCryptographicAssets"] (fun _ => rfl) (by simp) rfl
    (by simp) (by decide +kernel) (by decide +kernel) [] rfl (fun has W h hw ha => by
      first
      | trivial
      | (simp only [Place.Needs] at h ⊢
         simp only [List.mem_cons, List.not_mem_nil, or_false, forall_eq_or_imp, forall_eq] at hw ha
         grind)) (
    fullF_field .str rfl (full_plain rfl) (.inl rfl) (fun _ _ => fills_string) <|
    fullF_field .str rfl (full_plain rfl) (.inl rfl) (fun _ _ => fills_string) <|
    fullF_field (.list (.place .cipherSuite)) rfl (full_list (full_cipherSuite n v)) (.inl rfl) (fun _ _ => fills_list) <|
    fullF_field (.place .ikev2TransformTypes) rfl (full_option (full_ikev2TransformTypes n v)) (.inl rfl) (fun _ _ => fills_option) <|
    fullF_field (.list .str) rfl (full_plain rfl) (.inl rfl) (fun _ _ => fills_list) <|
    fullF_field (.since SpecVersion1_7 (.list (.place .relatedCryptographicAsset))) rfl (full_since (full_list (full_relatedCryptographicAsset n v))) (.inl rfl) (fun _ _ => fills_since (fills_list)) <|
    fullF_nil)

theorem full_securedBy (n : Nat) (v : Int) : FullC n v (.place .securedBy) J.securedBy :=
  full_struct [] []
    ["mechanism", "algorithmRef"]
    ["mechanism", "algorithmRef"] (fun _ => rfl) (by simp) rfl
    (by simp) (by decide +kernel) (by decide +kernel) [] rfl (fun has W h hw ha => by
      first
      | trivial
      | (simp only [Place.Needs] at h ⊢
         simp only [List.mem_cons, List.not_mem_nil, or_false, forall_eq_or_imp, forall_eq] at hw ha
         grind)) (
    fullF_field .str rfl (full_plain rfl) (.inl rfl) (fun _ _ => fills_string) <|
    fullF_field .str rfl (full_plain rfl) (.inl rfl) (fun _ _ => fills_bomReference) <|
    fullF_nil)

theorem full_relatedCryptoMaterialProperties (n : Nat) (v : Int) : FullC n v (.place .relatedCryptoMaterialProperties) J.relatedCryptoMaterialProperties :=
  full_struct [] []
    ["type", "id", "state", "algorithmRef", "creationDate", "activationDate", "updateDate", "expirationDate", "value", "size", "format", "securedBy", "fingerprint", "relatedCryptographicAssets"]
    ["type", "id", "state", "algorithmRef", "creationDate", "activationDate", "updateDate", "expirationDate", "value", "size", "format", "securedBy", "fingerprint", "relatedCryptographicAssets"] (fun _ => rfl) (by simp) rfl
    (by simp) (by decide +kernel) (by decide +kernel) [] rfl (fun has W h hw ha => by
      first
      | trivial
      | (simp only [Place.Needs] at h ⊢
         simp only [List.mem_cons, List.not_mem_nil, or_false, forall_eq_or_imp, forall_eq] at hw ha
         grind)) (
    fullF_field .str rfl (full_plain rfl) (.inl rfl) (fun _ _ => fills_string) <|
    fullF_field .str rfl (full_plain rfl) (.inl rfl) (fun _ _ => fills_string) <|
    fullF_field .str rfl (full_plain rfl) (.inl rfl) (fun _ _ => fills_string) <|
    fullF_field .str rfl (full_plain rfl) (.inl rfl) (fun _ _ => fills_bomReference) <|
    fullF_field .str rfl (full_plain rfl) (.inl rfl) (fun _ _ => fills_string) <|
    fullF_field .str rfl (full_plain rfl) (.inl rfl) (fun _ _ => fills_string) <|
    fullF_field .str rfl (full_plain rfl) (.inl rfl) (fun _ _ => fills_string) <|
    fullF_field .str rfl (full_plain rfl) (.inl rfl) (fun _ _ => fills_string) <|
    fullF_field .str rfl (full_plain rfl) (.inl rfl) (fun _ _ => fills_string) <|
    fullF_field .int rfl (full_plain rfl) (.inl rfl) (fun _ _ => fills_option) <|
    fullF_field .str rfl (full_plain rfl) (.inl rfl) (fun _ _ => fills_string) <|
    fullF_field (.place .securedBy) rfl (full_option (full_securedBy n v)) (.inl rfl) (fun _ _ => fills_option) <|
    fullF_field (.since SpecVersion1_7 (.place .hash)) rfl (full_since (full_option (full_hash n v))) (.inl rfl) (fun _ _ => fills_since (fills_option)) <|
    fullF_field (.since SpecVersion1_7 (.list (.place .relatedCryptographicAsset))) rfl (full_since (full_list (full_relatedCryptographicAsset n v))) (.inl rfl) (fun _ _ => fills_since (fills_list)) <|
    fullF_nil)

theorem full_cryptoProperties (n : Nat) (v : Int) : FullC n v (.place .cryptoProperties) J.cryptoProperties :=
  full_struct [] []
    ["assetType", "algorithmProperties", "certificateProperties", "relatedCryptoMaterialProperties", "protocolProperties", "oid"]
    ["assetType", "algorithmProperties", "certificateProperties", "relatedCryptoMaterialProperties", "protocolProperties", "oid"] (fun _ => rfl) (by simp) rfl
    (by simp) (by decide +kernel) (by decide +kernel) ["assetType"] rfl (fun has W h hw ha => by
      first
      | trivial
      | (simp only [Place.Needs] at h ⊢
         simp only [List.mem_cons, List.not_mem_nil, or_false, forall_eq_or_imp, forall_eq] at hw ha
         grind)) (
    fullF_field .str rfl (full_plain rfl) (.inr (outR_plain rfl)) (fun _ => nofun) <|
    fullF_field (.place .algorithmProperties) rfl (full_option (full_cryptoAlgorithmProperties n v)) (.inl rfl) (fun _ _ => fills_option) <|
    fullF_field (.place .certificateProperties) rfl (full_option (full_certificateProperties n v)) (.inl rfl) (fun _ _ => fills_option) <|
    fullF_field (.place .relatedCryptoMaterialProperties) rfl (full_option (full_relatedCryptoMaterialProperties n v)) (.inl rfl) (fun _ _ => fills_option) <|
    fullF_field (.place .protocolProperties) rfl (full_option (full_cryptoProtocolProperties n v)) (.inl rfl) (fun _ _ => fills_option) <|
    fullF_field .str rfl (full_plain rfl) (.inl rfl) (fun _ _ => fills_string) <|
    fullF_nil)

theorem full_callstackFrame (n : Nat) (v : Int) : FullC n v (.place .componentEvidenceCallstackFrames) J.callstackFrame :=
  full_struct [] []
    ["package", "module", "function", "parameters", "line", "column", "fullFilename"]
    ["package", "module", "function", "parameters", "line", "column", "fullFilename"] (fun _ => rfl) (by simp) rfl
    (by simp) (by decide +kernel) (by decide +kernel) [] rfl (fun has W h hw ha => by
      first
      | trivial
      | (simp only [Place.Needs] at h ⊢
         simp only [List.mem_cons, List.not_mem_nil, or_false, forall_eq_or_imp, forall_eq] at hw ha
         grind)) (
    fullF_field .str rfl (full_plain rfl) (.inl rfl) (fun _ _ => fills_string) <|
    fullF_field .str rfl (full_plain rfl) (.inl rfl) (fun _ _ => fills_string) <|
    fullF_field .str rfl (full_plain rfl) (.inl rfl) (fun _ _ => fills_string) <|
    fullF_field (.list .str) rfl (full_plain rfl) (.inl rfl) (fun _ _ => fills_list) <|
    fullF_field .int rfl (full_plain rfl) (.inl rfl) (fun _ _ => fills_option) <|
    fullF_field .int rfl (full_plain rfl) (.inl rfl) (fun _ _ => fills_option) <|
    fullF_field .str rfl (full_plain rfl) (.inl rfl) (fun _ _ => fills_string) <|
    fullF_nil)

theorem full_callstack (n : Nat) (v : Int) : FullC n v (.place .componentEvidenceCallstack) J.callstack :=
  full_struct [] []
    ["frames"]
    ["frames"] (fun _ => rfl) (by simp) rfl
    (by simp) (by decide +kernel) (by decide +kernel) [] rfl (fun has W h hw ha => by
      first
      | trivial
      | (simp only [Place.Needs] at h ⊢
         simp only [List.mem_cons, List.not_mem_nil, or_false, forall_eq_or_imp, forall_eq] at hw ha
         grind)) (
    fullF_field (.list (.place .componentEvidenceCallstackFrames)) rfl (full_list (full_callstackFrame n v)) (.inl rfl) (fun _ _ => fills_list) <|
    fullF_nil)

theorem full_copyright (n : Nat) (v : Int) : FullC n v (.place .copyright) J.copyright :=
  full_struct [] []
    ["text"]
    ["text"] (fun _ => rfl) (by simp) rfl
    (by simp) (by decide +kernel) (by decide +kernel) ["text"] rfl (fun has W h hw ha => by
      first
      | trivial
      | (simp only [Place.Needs] at h ⊢
         simp only [List.mem_cons, List.not_mem_nil, or_false, forall_eq_or_imp, forall_eq] at hw ha
         grind)) (
    fullF_field .str rfl (full_plain rfl) (.inr (outR_plain rfl)) (fun _ => nofun) <|
    fullF_nil)

theorem full_evidenceIdentityMethod (n : Nat) (v : Int) : FullC n v (.place .componentIdentityEvidenceMethods) J.evidenceIdentityMethod :=
  full_struct [] []
    ["technique", "confidence", "value"]
    ["technique", "confidence", "value"] (fun _ => rfl) (by simp) rfl
    (by simp) (by decide +kernel) (by decide +kernel) [] rfl (fun has W h hw ha => by
      first
      | trivial
      | (simp only [Place.Needs] at h ⊢
         simp only [List.mem_cons, List.not_mem_nil, or_false, forall_eq_or_imp, forall_eq] at hw ha
         grind)) (
    fullF_field .str rfl (full_plain rfl) (.inl rfl) (fun _ _ => fills_string) <|
    fullF_field .num rfl (full_plain rfl) (.inl rfl) (fun _ _ => fills_option) <|
    fullF_field .str rfl (full_plain rfl) (.inl rfl) (fun _ _ => fills_string) <|
    fullF_nil)

theorem full_evidenceIdentity (n : Nat) (v : Int) : FullC n v (.place .componentIdentityEvidence) J.evidenceIdentity :=
  full_struct [] []
    ["field", "confidence", "concludedValue", "methods", "tools"]
    ["field", "confidence", "concludedValue", "methods", "tools"] (fun _ => rfl) (by simp) rfl
    (by simp) (by decide +kernel) (by decide +kernel) [] rfl (fun has W h hw ha => by
      first
      | trivial
      | (simp only [Place.Needs] at h ⊢
         simp only [List.mem_cons, List.not_mem_nil, or_false, forall_eq_or_imp, forall_eq] at hw ha
         grind)) (
    fullF_field .str rfl (full_plain rfl) (.inl rfl) (fun _ _ => fills_string) <|
    fullF_field .num rfl (full_plain rfl) (.inl rfl) (fun _ _ => fills_option) <|
    fullF_field (.since SpecVersion1_6 .str) rfl (full_plain rfl) (.inl rfl) (fun _ _ => fills_since (fills_string)) <|
    fullF_field (.list (.place .componentIdentityEvidenceMethods)) rfl (full_list (full_evidenceIdentityMethod n v)) (.inl rfl) (fun _ _ => fills_list) <|
    fullF_field (.list .str) rfl (full_plain rfl) (.inl rfl) (fun _ _ => fills_list) <|
    fullF_nil)

theorem full_evidenceIdentityChoice (n : Nat) (v : Int) : FullC n v (.alt (.since SpecVersion1_6 (.list (.place .componentIdentityEvidence))) (.place .componentIdentityEvidence)) J.evidenceIdentityChoice := by
  obtain ⟨I, hz, h⟩ := full_evidenceIdentity n v
  obtain ⟨L, lz, hl⟩ := full_list (full_evidenceIdentity n v)
  let A : PSlice EvidenceIdentity → Prop := fun p =>
    OutR v (.list (.place .componentIdentityEvidence)) (JCodec.pslice J.evidenceIdentity) p
  let B : Option EvidenceIdentity → Prop := fun o =>
    ∀ i ∈ o, OutR v (.place .componentIdentityEvidence) J.evidenceIdentity i
  have key : ∀ o p, A p → B o → OutR v (.alt (.since SpecVersion1_6 (.list (.place .componentIdentityEvidence))) (.place .componentIdentityEvidence)) J.evidenceIdentityChoice ⟨o, p⟩ := by
    intro o p ha hb j hj
    simp only [J.evidenceIdentityChoice] at hj
    rw [required_alt, required_since]
    cases o with
    | some i =>
      simp only at hj
      split at hj
      · cases hj
      · have := hb i rfl j hj
        obtain ⟨ms, rfl⟩ := struct_is_obj hj
        exact ⟨required_list_obj, this⟩
    | none =>
      simp only at hj
      split at hj
      · refine ⟨ha j hj, ?_⟩
        cases p with
        | list xs =>
          simp only [JCodec.pslice, Option.map_eq_some_iff] at hj
          obtain ⟨js, _, rfl⟩ := hj; exact required_place_arr
        | _ =>
          simp only [JCodec.pslice, Option.some.injEq] at hj
          subst hj; exact required_null _
      · simp only [Option.some.injEq] at hj
        subst hj
        exact ⟨required_null _, required_null _⟩
  have nil : A .nil := by
    intro j hj
    simp only [JCodec.pslice, Option.some.injEq] at hj
    subst hj
    exact required_null _
  refine ⟨fun c => A c.identities ∧ B c.identity, ⟨nil, by intro i hi; cases hi⟩, ?_⟩
  rintro j ⟨o, p⟩ x hj hs ⟨ha, hb⟩ hd
  rcases hs.alt with hs | hs
  · have hs := hs.since
    obtain ⟨js, rfl⟩ := conforms_list_arr hs.declared
    simp only [J.evidenceIdentityChoice] at hd
    cases he : (JCodec.pslice J.evidenceIdentity).dec (.arr js) .nil with
    | none => rw [he] at hd; cases hd
    | some ids =>
      simp only [he, Option.some.injEq] at hd
      subst hd
      have h1 : A ids := (hl _ _ _ hj hs lz he).2
      exact ⟨⟨h1, hb⟩, key _ _ h1 hb⟩
  · obtain ⟨ms, rfl⟩ := conforms_place_obj hs.declared
    simp only [J.evidenceIdentityChoice] at hd
    cases he : J.evidenceIdentity.dec (.obj ms) {} with
    | none => rw [he] at hd; cases hd
    | some i =>
      simp only [he, Option.some.injEq] at hd
      subst hd
      have h1 : B (some i) := fun y hy => by cases hy; exact (h _ _ _ hj hs hz he).2
      exact ⟨⟨ha, h1⟩, key _ _ ha h1⟩


theorem full_evidenceOccurrence (n : Nat) (v : Int) : FullC n v (.place .componentEvidenceOccurrences) J.evidenceOccurrence :=
  full_struct [] []
    ["bom-ref", "location", "line", "offset", "symbol", "additionalContext"]
    ["bom-ref", "location", "line", "offset", "symbol", "additionalContext"] (fun _ => rfl) (by simp) rfl
    (by simp) (by decide +kernel) (by decide +kernel) [] rfl (fun has W h hw ha => by
      first
      | trivial
      | (simp only [Place.Needs] at h ⊢
         simp only [List.mem_cons, List.not_mem_nil, or_false, forall_eq_or_imp, forall_eq] at hw ha
         grind)) (
    fullF_field .str rfl (full_plain rfl) (.inl rfl) (fun _ _ => fills_string) <|
    fullF_field .str rfl (full_plain rfl) (.inl rfl) (fun _ _ => fills_string) <|
    fullF_field (.since SpecVersion1_6 .int) rfl (full_plain rfl) (.inl rfl) (fun _ _ => fills_since (fills_option)) <|
    fullF_field (.since SpecVersion1_6 .int) rfl (full_plain rfl) (.inl rfl) (fun _ _ => fills_since (fills_option)) <|
    fullF_field (.since SpecVersion1_6 .str) rfl (full_plain rfl) (.inl rfl) (fun _ _ => fills_since (fills_string)) <|
    fullF_field (.since SpecVersion1_6 .str) rfl (full_plain rfl) (.inl rfl) (fun _ _ => fills_since (fills_string)) <|
    fullF_nil)

theorem full_organizationalEntityOrContact (n : Nat) (v : Int) : FullC n v (.place .organizationOrIndividual) J.organizationalEntityOrContact :=
  full_struct [] []
    ["organization", "individual"]
    ["organization", "individual"] (fun _ => rfl) (by simp) rfl
    (by simp) (by decide +kernel) (by decide +kernel) [] rfl (fun has W h hw ha => by
      first
      | trivial
      | (simp only [Place.Needs] at h ⊢
         simp only [List.mem_cons, List.not_mem_nil, or_false, forall_eq_or_imp, forall_eq] at hw ha
         grind)) (
    fullF_field (.place .organizationalEntity) rfl (full_option (full_organizationalEntity n v)) (.inl rfl) (fun _ _ => fills_option) <|
    fullF_field (.place .organizationalContact) rfl (full_option (full_organizationalContact n v)) (.inl rfl) (fun _ _ => fills_option) <|
    fullF_nil)

theorem full_organizationalEntityOrContact_patentAssignee (n : Nat) (v : Int) : FullC n v (.place .patentAssignee) J.organizationalEntityOrContact :=
  full_struct [] ["bom-ref", "name", "email", "phone", "address", "url", "contact"]
    ["organization", "individual"]
    ["organization", "individual"] (fun _ => rfl) (by simp) rfl
    (by simp) (by decide +kernel) (by decide +kernel) [] rfl (fun has W h hw ha => by
      first
      | trivial
      | (simp only [Place.Needs] at h ⊢
         simp only [List.mem_cons, List.not_mem_nil, or_false, forall_eq_or_imp, forall_eq] at hw ha
         grind)) (
    fullF_none rfl <|
    fullF_none rfl <|
    fullF_nil)

theorem full_licensing (n : Nat) (v : Int) : FullC n v (.place .licensing) J.licensing :=
  full_struct [] []
    ["altIds", "licensor", "licensee", "purchaser", "purchaseOrder", "licenseTypes", "lastRenewal", "expiration"]
    ["altIds", "licensor", "licensee", "purchaser", "purchaseOrder", "licenseTypes", "lastRenewal", "expiration"] (fun _ => rfl) (by simp) rfl
    (by simp) (by decide +kernel) (by decide +kernel) [] rfl (fun has W h hw ha => by
      first
      | trivial
      | (simp only [Place.Needs] at h ⊢
         simp only [List.mem_cons, List.not_mem_nil, or_false, forall_eq_or_imp, forall_eq] at hw ha
         grind)) (
    fullF_field (.list .str) rfl (full_plain rfl) (.inl rfl) (fun _ _ => fills_list) <|
    fullF_field (.place .organizationOrIndividual) rfl (full_option (full_organizationalEntityOrContact n v)) (.inl rfl) (fun _ _ => fills_option) <|
    fullF_field (.place .organizationOrIndividual) rfl (full_option (full_organizationalEntityOrContact n v)) (.inl rfl) (fun _ _ => fills_option) <|
    fullF_field (.place .organizationOrIndividual) rfl (full_option (full_organizationalEntityOrContact n v)) (.inl rfl) (fun _ _ => fills_option) <|
    fullF_field .str rfl (full_plain rfl) (.inl rfl) (fun _ _ => fills_string) <|
    fullF_field (.list .str) rfl (full_plain rfl) (.inl rfl) (fun _ _ => fills_list) <|
    fullF_field .str rfl (full_plain rfl) (.inl rfl) (fun _ _ => fills_string) <|
    fullF_field .str rfl (full_plain rfl) (.inl rfl) (fun _ _ => fills_string) <|
    fullF_nil)

theorem full_license (n : Nat) (v : Int) : FullC n v (.place .license) J.license := by
  have h : FullC n v (.place .license) J.licenseAlias :=
    full_struct [] []
    ["bom-ref", "id", "name", "acknowledgement", "text", "url", "licensing", "properties"]
    ["bom-ref", "id", "name", "acknowledgement", "text", "url", "licensing", "properties"] (fun _ => rfl) (by simp) rfl
    (by simp) (by decide +kernel) (by decide +kernel) [] rfl (fun has W h hw ha => by
      first
      | trivial
      | (simp only [Place.Needs] at h ⊢
         simp only [List.mem_cons, List.not_mem_nil, or_false, forall_eq_or_imp, forall_eq] at hw ha
         grind)) (
    fullF_field (.since SpecVersion1_5 .str) rfl (full_plain rfl) (.inl rfl) (fun _ _ => fills_since (fills_string)) <|
    fullF_field .str rfl (full_plain rfl) (.inl rfl) (fun _ _ => fills_string) <|
    fullF_field .str rfl (full_plain rfl) (.inl rfl) (fun _ _ => fills_string) <|
    fullF_field (.since SpecVersion1_6 .str) rfl (full_plain rfl) (.inl rfl) (fun _ _ => fills_since (fills_string)) <|
    fullF_field (.place .attachment) rfl (full_option (full_attachedText n v)) (.inl rfl) (fun _ _ => fills_option) <|
    fullF_field .str rfl (full_plain rfl) (.inl rfl) (fun _ _ => fills_string) <|
    fullF_field (.since SpecVersion1_5 (.place .licensing)) rfl (full_since (full_option (full_licensing n v))) (.inl rfl) (fun _ _ => fills_since (fills_option)) <|
    fullF_field (.since SpecVersion1_5 (.list (.place .property))) rfl (full_since (full_list (full_property n v))) (.inl rfl) (fun _ _ => fills_since (fills_list)) <|
    fullF_nil)
  obtain ⟨I, hz, h⟩ := h
  refine ⟨I, hz, fun j old x hj hs hi hd => ?_⟩
  obtain ⟨hi, ho⟩ := h j old x hj hs hi hd
  refine ⟨hi, fun i hj => ho i ?_⟩
  simp only [J.license] at hj
  split at hj
  · cases hj
  · split at hj
    · cases hj
    · exact hj


theorem full_licenseExpressionDetail (n : Nat) (v : Int) : FullC n v (.place .expressionDetail) J.licenseExpressionDetail :=
  full_struct [] []
    ["licenseIdentifier", "bom-ref", "text", "url"]
    ["licenseIdentifier", "bom-ref", "text", "url"] (fun _ => rfl) (by simp) rfl
    (by simp) (by decide +kernel) (by decide +kernel) ["licenseIdentifier"] rfl (fun has W h hw ha => by
      first
      | trivial
      | (simp only [Place.Needs] at h ⊢
         simp only [List.mem_cons, List.not_mem_nil, or_false, forall_eq_or_imp, forall_eq] at hw ha
         grind)) (
    fullF_field .str rfl (full_plain rfl) (.inr (outR_plain rfl)) (fun _ => nofun) <|
    fullF_field .str rfl (full_plain rfl) (.inl rfl) (fun _ _ => fills_string) <|
    fullF_field (.place .attachment) rfl (full_option (full_attachedText n v)) (.inl rfl) (fun _ _ => fills_option) <|
    fullF_field .str rfl (full_plain rfl) (.inl rfl) (fun _ _ => fills_string) <|
    fullF_nil)

theorem full_licenseChoice (n : Nat) (v : Int) : FullC n v (.place .licenseChoice) J.licenseChoice :=
  full_struct [] []
    ["license", "expression", "expressionDetails", "acknowledgement", "bom-ref", "licensing", "properties"]
    ["license", "expression", "expressionDetails", "acknowledgement", "bom-ref", "licensing", "properties"] (fun _ => rfl) (by simp) rfl
    (by simp) (by decide +kernel) (by decide +kernel) [] rfl (fun has W h hw ha => by
      first
      | trivial
      | (simp only [Place.Needs] at h ⊢
         simp only [List.mem_cons, List.not_mem_nil, or_false, forall_eq_or_imp, forall_eq] at hw ha
         grind)) (
    fullF_field (.place .license) rfl (full_option (full_license n v)) (.inl rfl) (fun _ _ => fills_option) <|
    fullF_field .str rfl (full_plain rfl) (.inl rfl) (fun _ _ => fills_string) <|
    fullF_field (.since SpecVersion1_7 (.list (.place .expressionDetail))) rfl (full_since (full_list (full_licenseExpressionDetail n v))) (.inl rfl) (fun _ _ => fills_since (fills_list)) <|
    fullF_field (.since SpecVersion1_6 .str) rfl (full_plain rfl) (.inl rfl) (fun _ _ => fills_since (fills_option)) <|
    fullF_field (.since SpecVersion1_6 .str) rfl (full_plain rfl) (.inl rfl) (fun _ _ => fills_since (fills_string)) <|
    fullF_field (.since SpecVersion1_7 (.place .licensing)) rfl (full_since (full_option (full_licensing n v))) (.inl rfl) (fun _ _ => fills_since (fills_option)) <|
    fullF_field (.since SpecVersion1_7 (.list (.place .property))) rfl (full_since (full_list (full_property n v))) (.inl rfl) (fun _ _ => fills_since (fills_list)) <|
    fullF_nil)

theorem full_evidence (n : Nat) (v : Int) : FullC n v (.place .componentEvidence) J.evidence :=
  full_struct [] []
    ["identity", "occurrences", "callstack", "licenses", "copyright"]
    ["identity", "occurrences", "callstack", "licenses", "copyright"] (fun _ => rfl) (by simp) rfl
    (by simp) (by decide +kernel) (by decide +kernel) [] rfl (fun has W h hw ha => by
      first
      | trivial
      | (simp only [Place.Needs] at h ⊢
         simp only [List.mem_cons, List.not_mem_nil, or_false, forall_eq_or_imp, forall_eq] at hw ha
         grind)) (
    fullF_field (.since SpecVersion1_5 (.alt (.since SpecVersion1_6 (.list (.place .componentIdentityEvidence))) (.place .componentIdentityEvidence))) rfl (full_since (full_option (full_evidenceIdentityChoice n v))) (.inl rfl) (fun _ _ => fills_since (fills_option)) <|
    fullF_field (.since SpecVersion1_5 (.list (.place .componentEvidenceOccurrences))) rfl (full_since (full_list (full_evidenceOccurrence n v))) (.inl rfl) (fun _ _ => fills_since (fills_list)) <|
    fullF_field (.since SpecVersion1_5 (.place .componentEvidenceCallstack)) rfl (full_since (full_option (full_callstack n v))) (.inl rfl) (fun _ _ => fills_since (fills_option)) <|
    fullF_field (.list (.place .licenseChoice)) rfl (full_list (full_licenseChoice n v)) (.inl rfl) (fun _ _ => fills_list) <|
    fullF_field (.list (.place .copyright)) rfl (full_list (full_copyright n v)) (.inl rfl) (fun _ _ => fills_list) <|
    fullF_nil)

theorem full_externalReference (n : Nat) (v : Int) : FullC n v (.place .externalReference) J.externalReference :=
  full_struct [] []
    ["url", "comment", "hashes", "type", "properties"]
    ["url", "comment", "hashes", "type", "properties"] (fun _ => rfl) (by simp) rfl
    (by simp) (by decide +kernel) (by decide +kernel) ["url", "type"] rfl (fun has W h hw ha => by
      first
      | trivial
      | (simp only [Place.Needs] at h ⊢
         simp only [List.mem_cons, List.not_mem_nil, or_false, forall_eq_or_imp, forall_eq] at hw ha
         grind)) (
    fullF_field .str rfl (full_plain rfl) (.inr (outR_plain rfl)) (fun _ => nofun) <|
    fullF_field .str rfl (full_plain rfl) (.inl rfl) (fun _ _ => fills_string) <|
    fullF_field (.since SpecVersion1_3 (.list (.place .hash))) rfl (full_since (full_list (full_hash n v))) (.inl rfl) (fun _ _ => fills_since (fills_list)) <|
    fullF_field .str rfl (full_plain rfl) (.inr (outR_plain rfl)) (fun _ => nofun) <|
    fullF_field (.since SpecVersion1_7 (.list (.place .property))) rfl (full_since (full_list (full_property n v))) (.inl rfl) (fun _ _ => fills_since (fills_list)) <|
    fullF_nil)

theorem full_jsfPublicKey (n : Nat) (v : Int) : FullC n v (.place .publicKey) J.jsfPublicKey :=
  full_struct [] []
    ["kty", "crv", "x", "y", "n", "e"]
    ["kty", "crv", "x", "y", "n", "e"] (fun _ => rfl) (by simp) rfl
    (by simp) (by decide +kernel) (by decide +kernel) [] rfl (fun has W h hw ha => by
      first
      | trivial
      | (simp only [Place.Needs] at h ⊢
         simp only [List.mem_cons, List.not_mem_nil, or_false, forall_eq_or_imp, forall_eq] at hw ha
         grind)) (
    fullF_field .str rfl (full_plain rfl) (.inl rfl) (fun _ _ => fills_string) <|
    fullF_field .str rfl (full_plain rfl) (.inl rfl) (fun _ _ => fills_string) <|
    fullF_field .str rfl (full_plain rfl) (.inl rfl) (fun _ _ => fills_string) <|
    fullF_field .str rfl (full_plain rfl) (.inl rfl) (fun _ _ => fills_string) <|
    fullF_field .str rfl (full_plain rfl) (.inl rfl) (fun _ _ => fills_string) <|
    fullF_field .str rfl (full_plain rfl) (.inl rfl) (fun _ _ => fills_string) <|
    fullF_nil)

theorem full_jsfSigner (n : Nat) (v : Int) : FullC n v (.place .signer) J.jsfSigner :=
  full_struct ["publicKey"] []
    ["algorithm", "keyId", "publicKey", "certificatePath", "excludes", "value"]
    ["algorithm", "keyId", "publicKey", "certificatePath", "excludes", "value"] (fun _ => rfl) (fun ms h => by
      simp only [List.mem_singleton, forall_eq]
      refine Classical.byContradiction fun hn => h.ample (.keyless fun m hm e => hn ⟨m, hm, e⟩)) rfl
    (by simp) (by decide +kernel) (by decide +kernel) ["algorithm", "value"] rfl (fun has W h hw ha => by
      first
      | trivial
      | (simp only [Place.Needs] at h ⊢
         simp only [List.mem_cons, List.not_mem_nil, or_false, forall_eq_or_imp, forall_eq] at hw ha
         grind)) (
    fullF_field .str rfl (full_plain rfl) (.inr (outR_plain rfl)) (fun _ => nofun) <|
    fullF_field .str rfl (full_plain rfl) (.inl rfl) (fun _ _ => fills_string) <|
    fullF_req (.place .publicKey) rfl (full_jsfPublicKey n v) (by simp) (fun _ _ => (fun _ _ _ _ _ => rfl)) <|
    fullF_field (.list .str) rfl (full_plain rfl) (.inl rfl) (fun _ _ => fills_list) <|
    fullF_field (.list .str) rfl (full_plain rfl) (.inl rfl) (fun _ _ => fills_list) <|
    fullF_field .str rfl (full_plain rfl) (.inr (outR_plain rfl)) (fun _ => nofun) <|
    fullF_nil)

theorem full_jsfSignature (n : Nat) (v : Int) : FullC n v (.place .signature) J.jsfSignature :=
  full_struct [] ["algorithm", "keyId", "publicKey", "certificatePath", "excludes", "value"]
    ["signers", "chain"]
    ["signers", "chain"] (fun _ => rfl) (by simp) rfl
    (by simp) (by decide +kernel) (by decide +kernel) [] rfl (fun has W h hw ha => by
      first
      | trivial
      | (simp only [Place.Needs] at h ⊢
         simp only [List.mem_cons, List.not_mem_nil, or_false, forall_eq_or_imp, forall_eq] at hw ha
         grind)) (
    fullF_skip <|
    fullF_field (.list (.place .signer)) rfl (full_list (full_jsfSigner n v)) (.inl rfl) (fun _ _ => fills_list) <|
    fullF_field (.list (.place .signer)) rfl (full_list (full_jsfSigner n v)) (.inl rfl) (fun _ _ => fills_list) <|
    fullF_nil)

theorem full_mlModelCO2Measure (n : Nat) (v : Int) : FullC n v (.place .co2Measure) J.mlModelCO2Measure :=
  full_struct [] []
    ["value", "unit"]
    ["value", "unit"] (fun _ => rfl) (by simp) rfl
    (by simp) (by decide +kernel) (by decide +kernel) ["value", "unit"] rfl (fun has W h hw ha => by
      first
      | trivial
      | (simp only [Place.Needs] at h ⊢
         simp only [List.mem_cons, List.not_mem_nil, or_false, forall_eq_or_imp, forall_eq] at hw ha
         grind)) (
    fullF_field .num rfl (full_plain rfl) (.inr (outR_plain rfl)) (fun _ => nofun) <|
    fullF_field .str rfl (full_plain rfl) (.inr (outR_plain rfl)) (fun _ => nofun) <|
    fullF_nil)

theorem full_mlModelEnergyMeasure (n : Nat) (v : Int) : FullC n v (.place .energyMeasure) J.mlModelEnergyMeasure :=
  full_struct [] []
    ["value", "unit"]
    ["value", "unit"] (fun _ => rfl) (by simp) rfl
    (by simp) (by decide +kernel) (by decide +kernel) ["value", "unit"] rfl (fun has W h hw ha => by
      first
      | trivial
      | (simp only [Place.Needs] at h ⊢
         simp only [List.mem_cons, List.not_mem_nil, or_false, forall_eq_or_imp, forall_eq] at hw ha
         grind)) (
    fullF_field .num rfl (full_plain rfl) (.inr (outR_plain rfl)) (fun _ => nofun) <|
    fullF_field .str rfl (full_plain rfl) (.inr (outR_plain rfl)) (fun _ => nofun) <|
    fullF_nil)

theorem full_mlModelEnergyProvider (n : Nat) (v : Int) : FullC n v (.place .energyProvider) J.mlModelEnergyProvider :=
  full_struct ["organization", "energyProvided"] []
    ["bom-ref", "description", "organization", "energySource", "energyProvided", "externalReferences"]
    ["bom-ref", "description", "organization", "energySource", "energyProvided", "externalReferences"] (fun _ => rfl) (fun ms h => by
      have h := (required_place.1 h.required).1
      simp only [List.mem_cons, List.not_mem_nil, or_false, forall_eq_or_imp, forall_eq]
      exact ⟨h.1, h.2.2⟩) rfl
    (by simp) (by decide +kernel) (by decide +kernel) ["organization", "energySource", "energyProvided"] rfl (fun has W h hw ha => by
      first
      | trivial
      | (simp only [Place.Needs] at h ⊢
         simp only [List.mem_cons, List.not_mem_nil, or_false, forall_eq_or_imp, forall_eq] at hw ha
         grind)) (
    fullF_field .str rfl (full_plain rfl) (.inl rfl) (fun _ _ => fills_string) <|
    fullF_field .str rfl (full_plain rfl) (.inl rfl) (fun _ _ => fills_string) <|
    fullF_req (.place .organizationalEntity) rfl (full_option (full_organizationalEntity n v)) (by simp) (fun _ => nofun) <|
    fullF_field .str rfl (full_plain rfl) (.inr (outR_plain rfl)) (fun _ => nofun) <|
    fullF_req (.place .energyMeasure) rfl (full_option (full_mlModelEnergyMeasure n v)) (by simp) (fun _ => nofun) <|
    fullF_field (.list (.place .externalReference)) rfl (full_list (full_externalReference n v)) (.inl rfl) (fun _ _ => fills_list) <|
    fullF_nil)

theorem full_mlModelEnergyConsumption (n : Nat) (v : Int) : FullC n v (.place .energyConsumption) J.mlModelEnergyConsumption :=
  full_struct ["energyProviders"] []
    ["activity", "energyProviders", "activityEnergyCost", "co2CostEquivalent", "co2CostOffset", "properties"]
    ["activity", "energyProviders", "activityEnergyCost", "co2CostEquivalent", "co2CostOffset", "properties"] (fun _ => rfl) (fun ms h => by
      have h := (required_place.1 h.required).1
      simp only [List.mem_cons, List.not_mem_nil, or_false, forall_eq_or_imp, forall_eq]
      exact h.2.1) rfl
    (by simp) (by decide +kernel) (by decide +kernel) ["activity", "energyProviders", "activityEnergyCost"] rfl (fun has W h hw ha => by
      first
      | trivial
      | (simp only [Place.Needs] at h ⊢
         simp only [List.mem_cons, List.not_mem_nil, or_false, forall_eq_or_imp, forall_eq] at hw ha
         grind)) (
    fullF_field .str rfl (full_plain rfl) (.inr (outR_plain rfl)) (fun _ => nofun) <|
    fullF_req (.list (.place .energyProvider)) rfl (full_list (full_mlModelEnergyProvider n v)) (by simp) (fun _ => nofun) <|
    fullF_field (.place .energyMeasure) rfl (full_mlModelEnergyMeasure n v) (.inr (outR_of_comp (comp_mlModelEnergyMeasure v _))) (fun _ => nofun) <|
    fullF_field (.place .co2Measure) rfl (full_option (full_mlModelCO2Measure n v)) (.inl rfl) (fun _ _ => fills_option) <|
    fullF_field (.place .co2Measure) rfl (full_option (full_mlModelCO2Measure n v)) (.inl rfl) (fun _ _ => fills_option) <|
    fullF_field (.list (.place .property)) rfl (full_list (full_property n v)) (.inl rfl) (fun _ _ => fills_list) <|
    fullF_nil)

theorem full_mlModelCardEnvironmentalConsiderations (n : Nat) (v : Int) : FullC n v (.place .environmentalConsiderations) J.mlModelCardEnvironmentalConsiderations :=
  full_struct [] []
    ["energyConsumptions", "properties"]
    ["energyConsumptions", "properties"] (fun _ => rfl) (by simp) rfl
    (by simp) (by decide +kernel) (by decide +kernel) [] rfl (fun has W h hw ha => by
      first
      | trivial
      | (simp only [Place.Needs] at h ⊢
         simp only [List.mem_cons, List.not_mem_nil, or_false, forall_eq_or_imp, forall_eq] at hw ha
         grind)) (
    fullF_field (.list (.place .energyConsumption)) rfl (full_list (full_mlModelEnergyConsumption n v)) (.inl rfl) (fun _ _ => fills_list) <|
    fullF_field (.list (.place .property)) rfl (full_list (full_property n v)) (.inl rfl) (fun _ _ => fills_list) <|
    fullF_nil)

theorem full_mlModelCardEthicalConsideration (n : Nat) (v : Int) : FullC n v (.place .risk) J.mlModelCardEthicalConsideration :=
  full_struct [] []
    ["name", "mitigationStrategy"]
    ["name", "mitigationStrategy"] (fun _ => rfl) (by simp) rfl
    (by simp) (by decide +kernel) (by decide +kernel) [] rfl (fun has W h hw ha => by
      first
      | trivial
      | (simp only [Place.Needs] at h ⊢
         simp only [List.mem_cons, List.not_mem_nil, or_false, forall_eq_or_imp, forall_eq] at hw ha
         grind)) (
    fullF_field .str rfl (full_plain rfl) (.inl rfl) (fun _ _ => fills_string) <|
    fullF_field .str rfl (full_plain rfl) (.inl rfl) (fun _ _ => fills_string) <|
    fullF_nil)

theorem full_mlModelCardFairnessAssessment (n : Nat) (v : Int) : FullC n v (.place .fairnessAssessment) J.mlModelCardFairnessAssessment :=
  full_struct [] []
    ["groupAtRisk", "benefits", "harms", "mitigationStrategy"]
    ["groupAtRisk", "benefits", "harms", "mitigationStrategy"] (fun _ => rfl) (by simp) rfl
    (by simp) (by decide +kernel) (by decide +kernel) [] rfl (fun has W h hw ha => by
      first
      | trivial
      | (simp only [Place.Needs] at h ⊢
         simp only [List.mem_cons, List.not_mem_nil, or_false, forall_eq_or_imp, forall_eq] at hw ha
         grind)) (
    fullF_field .str rfl (full_plain rfl) (.inl rfl) (fun _ _ => fills_string) <|
    fullF_field .str rfl (full_plain rfl) (.inl rfl) (fun _ _ => fills_string) <|
    fullF_field .str rfl (full_plain rfl) (.inl rfl) (fun _ _ => fills_string) <|
    fullF_field .str rfl (full_plain rfl) (.inl rfl) (fun _ _ => fills_string) <|
    fullF_nil)

theorem full_mlModelCardConsiderations (n : Nat) (v : Int) : FullC n v (.place .modelCardConsiderations) J.mlModelCardConsiderations :=
  full_struct [] []
    ["users", "useCases", "technicalLimitations", "performanceTradeoffs", "ethicalConsiderations", "environmentalConsiderations", "fairnessAssessments"]
    ["users", "useCases", "technicalLimitations", "performanceTradeoffs", "ethicalConsiderations", "environmentalConsiderations", "fairnessAssessments"] (fun _ => rfl) (by simp) rfl
    (by simp) (by decide +kernel) (by decide +kernel) [] rfl (fun has W h hw ha => by
      first
      | trivial
      | (simp only [Place.Needs] at h ⊢
         simp only [List.mem_cons, List.not_mem_nil, or_false, forall_eq_or_imp, forall_eq] at hw ha
         grind)) (
    fullF_field (.list .str) rfl (full_plain rfl) (.inl rfl) (fun _ _ => fills_list) <|
    fullF_field (.list .str) rfl (full_plain rfl) (.inl rfl) (fun _ _ => fills_list) <|
    fullF_field (.list .str) rfl (full_plain rfl) (.inl rfl) (fun _ _ => fills_list) <|
    fullF_field (.list .str) rfl (full_plain rfl) (.inl rfl) (fun _ _ => fills_list) <|
    fullF_field (.list (.place .risk)) rfl (full_list (full_mlModelCardEthicalConsideration n v)) (.inl rfl) (fun _ _ => fills_list) <|
    fullF_field (.since SpecVersion1_6 (.place .environmentalConsiderations)) rfl (full_since (full_option (full_mlModelCardEnvironmentalConsiderations n v))) (.inl rfl) (fun _ _ => fills_since (fills_option)) <|
    fullF_field (.list (.place .fairnessAssessment)) rfl (full_list (full_mlModelCardFairnessAssessment n v)) (.inl rfl) (fun _ _ => fills_list) <|
    fullF_nil)

theorem full_mlDatasetChoice (n : Nat) (v : Int) : FullC n v (.place .modelDataset) J.mlDatasetChoice := by
  obtain ⟨I, hz, h⟩ := full_componentData_modelDataset n v
  have key : ∀ x : MLDatasetChoice, (∀ d ∈ x.componentData, OutR v (.place .modelDataset) J.componentData d) →
      OutR v (.place .modelDataset) J.mlDatasetChoice x := by
    intro x hx j hj
    simp only [J.mlDatasetChoice] at hj
    split at hj
    · simp only [Option.some.injEq] at hj
      subst hj
      rw [required_place]
      simp only [List.mem_singleton, forall_eq]
      refine ⟨trivial, fun s hs => ?_⟩
      cases hs
      exact .str _
    · cases hd : x.componentData with
      | none => simp only [hd, Option.some.injEq] at hj; subst hj; simp [required_place, Place.Needs]
      | some d => simp only [hd] at hj; exact hx d hd j hj
  refine ⟨fun x => ∀ d ∈ x.componentData, OutR v (.place .modelDataset) J.componentData d,
    (by intro d hd; cases hd), ?_⟩
  intro j old x hj hs hi hd
  suffices h : ∀ d ∈ x.componentData, OutR v (.place .modelDataset) J.componentData d from ⟨h, key x h⟩
  simp only [J.mlDatasetChoice] at hd
  split at hd
  · cases hd
  · split at hd
    · simp only [Option.some.injEq] at hd; subst hd; exact hi
    · split at hd
      · cases hd
      · rename_i d he
        split at hd
        · simp only [Option.some.injEq] at hd
          subst hd
          intro y hy
          cases hy
          exact (h _ _ _ hj hs hz he).2
        · simp only [Option.some.injEq] at hd; subst hd; exact hi


theorem full_mlInputOutputParameters (n : Nat) (v : Int) : FullC n v (.place .inputOutputMLParameters) J.mlInputOutputParameters :=
  full_struct [] []
    ["format"]
    ["format"] (fun _ => rfl) (by simp) rfl
    (by simp) (by decide +kernel) (by decide +kernel) [] rfl (fun has W h hw ha => by
      first
      | trivial
      | (simp only [Place.Needs] at h ⊢
         simp only [List.mem_cons, List.not_mem_nil, or_false, forall_eq_or_imp, forall_eq] at hw ha
         grind)) (
    fullF_field .str rfl (full_plain rfl) (.inl rfl) (fun _ _ => fills_string) <|
    fullF_nil)

theorem full_mlModelParametersApproach (n : Nat) (v : Int) : FullC n v (.place .modelCardModelParametersApproach) J.mlModelParametersApproach :=
  full_struct [] []
    ["type"]
    ["type"] (fun _ => rfl) (by simp) rfl
    (by simp) (by decide +kernel) (by decide +kernel) [] rfl (fun has W h hw ha => by
      first
      | trivial
      | (simp only [Place.Needs] at h ⊢
         simp only [List.mem_cons, List.not_mem_nil, or_false, forall_eq_or_imp, forall_eq] at hw ha
         grind)) (
    fullF_field .str rfl (full_plain rfl) (.inl rfl) (fun _ _ => fills_string) <|
    fullF_nil)

theorem full_mlModelParameters (n : Nat) (v : Int) : FullC n v (.place .modelCardModelParameters) J.mlModelParameters :=
  full_struct [] []
    ["approach", "task", "architectureFamily", "modelArchitecture", "datasets", "inputs", "outputs"]
    ["approach", "task", "architectureFamily", "modelArchitecture", "datasets", "inputs", "outputs"] (fun _ => rfl) (by simp) rfl
    (by simp) (by decide +kernel) (by decide +kernel) [] rfl (fun has W h hw ha => by
      first
      | trivial
      | (simp only [Place.Needs] at h ⊢
         simp only [List.mem_cons, List.not_mem_nil, or_false, forall_eq_or_imp, forall_eq] at hw ha
         grind)) (
    fullF_field (.place .modelCardModelParametersApproach) rfl (full_option (full_mlModelParametersApproach n v)) (.inl rfl) (fun _ _ => fills_option) <|
    fullF_field .str rfl (full_plain rfl) (.inl rfl) (fun _ _ => fills_string) <|
    fullF_field .str rfl (full_plain rfl) (.inl rfl) (fun _ _ => fills_string) <|
    fullF_field .str rfl (full_plain rfl) (.inl rfl) (fun _ _ => fills_string) <|
    fullF_field (.list (.place .modelDataset)) rfl (full_list (full_mlDatasetChoice n v)) (.inl rfl) (fun _ _ => fills_list) <|
    fullF_field (.list (.place .inputOutputMLParameters)) rfl (full_list (full_mlInputOutputParameters n v)) (.inl rfl) (fun _ _ => fills_list) <|
    fullF_field (.list (.place .inputOutputMLParameters)) rfl (full_list (full_mlInputOutputParameters n v)) (.inl rfl) (fun _ _ => fills_list) <|
    fullF_nil)

theorem full_mlPerformanceMetricConfidenceInterval (n : Nat) (v : Int) : FullC n v (.place .performanceMetricConfidenceInterval) J.mlPerformanceMetricConfidenceInterval :=
  full_struct [] []
    ["lowerBound", "upperBound"]
    ["lowerBound", "upperBound"] (fun _ => rfl) (by simp) rfl
    (by simp) (by decide +kernel) (by decide +kernel) [] rfl (fun has W h hw ha => by
      first
      | trivial
      | (simp only [Place.Needs] at h ⊢
         simp only [List.mem_cons, List.not_mem_nil, or_false, forall_eq_or_imp, forall_eq] at hw ha
         grind)) (
    fullF_field .str rfl (full_plain rfl) (.inl rfl) (fun _ _ => fills_string) <|
    fullF_field .str rfl (full_plain rfl) (.inl rfl) (fun _ _ => fills_string) <|
    fullF_nil)

theorem full_mlPerformanceMetric (n : Nat) (v : Int) : FullC n v (.place .performanceMetric) J.mlPerformanceMetric :=
  full_struct [] []
    ["type", "value", "slice", "confidenceInterval"]
    ["type", "value", "slice", "confidenceInterval"] (fun _ => rfl) (by simp) rfl
    (by simp) (by decide +kernel) (by decide +kernel) [] rfl (fun has W h hw ha => by
      first
      | trivial
      | (simp only [Place.Needs] at h ⊢
         simp only [List.mem_cons, List.not_mem_nil, or_false, forall_eq_or_imp, forall_eq] at hw ha
         grind)) (
    fullF_field .str rfl (full_plain rfl) (.inl rfl) (fun _ _ => fills_string) <|
    fullF_field .str rfl (full_plain rfl) (.inl rfl) (fun _ _ => fills_string) <|
    fullF_field .str rfl (full_plain rfl) (.inl rfl) (fun _ _ => fills_string) <|
    fullF_field (.place .performanceMetricConfidenceInterval) rfl (full_option (full_mlPerformanceMetricConfidenceInterval n v)) (.inl rfl) (fun _ _ => fills_option) <|
    fullF_nil)

theorem full_mlQuantitativeAnalysis (n : Nat) (v : Int) : FullC n v (.place .modelCardQuantitativeAnalysis) J.mlQuantitativeAnalysis :=
  full_struct [] []
    ["performanceMetrics", "graphics"]
    ["performanceMetrics", "graphics"] (fun _ => rfl) (by simp) rfl
    (by simp) (by decide +kernel) (by decide +kernel) [] rfl (fun has W h hw ha => by
      first
      | trivial
      | (simp only [Place.Needs] at h ⊢
         simp only [List.mem_cons, List.not_mem_nil, or_false, forall_eq_or_imp, forall_eq] at hw ha
         grind)) (
    fullF_field (.list (.place .performanceMetric)) rfl (full_list (full_mlPerformanceMetric n v)) (.inl rfl) (fun _ _ => fills_list) <|
    fullF_field (.place .graphicsCollection) rfl (full_option (full_componentDataGraphics n v)) (.inl rfl) (fun _ _ => fills_option) <|
    fullF_nil)

theorem full_mlModelCard (n : Nat) (v : Int) : FullC n v (.place .modelCard) J.mlModelCard :=
  full_struct [] ["properties"]
    ["bom-ref", "modelParameters", "quantitativeAnalysis", "considerations"]
    ["bom-ref", "modelParameters", "quantitativeAnalysis", "considerations"] (fun _ => rfl) (by simp) rfl
    (by simp) (by decide +kernel) (by decide +kernel) [] rfl (fun has W h hw ha => by
      first
      | trivial
      | (simp only [Place.Needs] at h ⊢
         simp only [List.mem_cons, List.not_mem_nil, or_false, forall_eq_or_imp, forall_eq] at hw ha
         grind)) (
    fullF_field .str rfl (full_plain rfl) (.inl rfl) (fun _ _ => fills_string) <|
    fullF_field (.place .modelCardModelParameters) rfl (full_option (full_mlModelParameters n v)) (.inl rfl) (fun _ _ => fills_option) <|
    fullF_field (.place .modelCardQuantitativeAnalysis) rfl (full_option (full_mlQuantitativeAnalysis n v)) (.inl rfl) (fun _ _ => fills_option) <|
    fullF_field (.place .modelCardConsiderations) rfl (full_option (full_mlModelCardConsiderations n v)) (.inl rfl) (fun _ _ => fills_option) <|
    fullF_nil)

theorem full_identifiableAction (n : Nat) (v : Int) : FullC n v (.place .identifiableAction) J.identifiableAction :=
  full_struct [] []
    ["timestamp", "name", "email"]
    ["timestamp", "name", "email"] (fun _ => rfl) (by simp) rfl
    (by simp) (by decide +kernel) (by decide +kernel) [] rfl (fun has W h hw ha => by
      first
      | trivial
      | (simp only [Place.Needs] at h ⊢
         simp only [List.mem_cons, List.not_mem_nil, or_false, forall_eq_or_imp, forall_eq] at hw ha
         grind)) (
    fullF_field .str rfl (full_plain rfl) (.inl rfl) (fun _ _ => fills_string) <|
    fullF_field .str rfl (full_plain rfl) (.inl rfl) (fun _ _ => fills_string) <|
    fullF_field .str rfl (full_plain rfl) (.inl rfl) (fun _ _ => fills_string) <|
    fullF_nil)

theorem full_commit (n : Nat) (v : Int) : FullC n v (.place .commit) J.commit :=
  full_struct [] []
    ["uid", "url", "author", "committer", "message"]
    ["uid", "url", "author", "committer", "message"] (fun _ => rfl) (by simp) rfl
    (by simp) (by decide +kernel) (by decide +kernel) [] rfl (fun has W h hw ha => by
      first
      | trivial
      | (simp only [Place.Needs] at h ⊢
         simp only [List.mem_cons, List.not_mem_nil, or_false, forall_eq_or_imp, forall_eq] at hw ha
         grind)) (
    fullF_field .str rfl (full_plain rfl) (.inl rfl) (fun _ _ => fills_string) <|
    fullF_field .str rfl (full_plain rfl) (.inl rfl) (fun _ _ => fills_string) <|
    fullF_field (.place .identifiableAction) rfl (full_option (full_identifiableAction n v)) (.inl rfl) (fun _ _ => fills_option) <|
    fullF_field (.place .identifiableAction) rfl (full_option (full_identifiableAction n v)) (.inl rfl) (fun _ _ => fills_option) <|
    fullF_field .str rfl (full_plain rfl) (.inl rfl) (fun _ _ => fills_string) <|
    fullF_nil)

theorem full_diff (n : Nat) (v : Int) : FullC n v (.place .diff) J.diff :=
  full_struct [] []
    ["text", "url"]
    ["text", "url"] (fun _ => rfl) (by simp) rfl
    (by simp) (by decide +kernel) (by decide +kernel) [] rfl (fun has W h hw ha => by
      first
      | trivial
      | (simp only [Place.Needs] at h ⊢
         simp only [List.mem_cons, List.not_mem_nil, or_false, forall_eq_or_imp, forall_eq] at hw ha
         grind)) (
    fullF_field (.place .attachment) rfl (full_option (full_attachedText n v)) (.inl rfl) (fun _ _ => fills_option) <|
    fullF_field .str rfl (full_plain rfl) (.inl rfl) (fun _ _ => fills_string) <|
    fullF_nil)

theorem full_source (n : Nat) (v : Int) : FullC n v (.place .vulnerabilitySource) J.source :=
  full_struct [] []
    ["name", "url"]
    ["name", "url"] (fun _ => rfl) (by simp) rfl
    (by simp) (by decide +kernel) (by decide +kernel) [] rfl (fun has W h hw ha => by
      first
      | trivial
      | (simp only [Place.Needs] at h ⊢
         simp only [List.mem_cons, List.not_mem_nil, or_false, forall_eq_or_imp, forall_eq] at hw ha
         grind)) (
    fullF_field .str rfl (full_plain rfl) (.inl rfl) (fun _ _ => fills_string) <|
    fullF_field .str rfl (full_plain rfl) (.inl rfl) (fun _ _ => fills_string) <|
    fullF_nil)

theorem full_source_issueSource (n : Nat) (v : Int) : FullC n v (.place .issueSource) J.source :=
  full_struct [] []
    ["name", "url"]
    ["name", "url"] (fun _ => rfl) (by simp) rfl
    (by simp) (by decide +kernel) (by decide +kernel) [] rfl (fun has W h hw ha => by
      first
      | trivial
      | (simp only [Place.Needs] at h ⊢
         simp only [List.mem_cons, List.not_mem_nil, or_false, forall_eq_or_imp, forall_eq] at hw ha
         grind)) (
    fullF_field .str rfl (full_plain rfl) (.inl rfl) (fun _ _ => fills_string) <|
    fullF_field .str rfl (full_plain rfl) (.inl rfl) (fun _ _ => fills_string) <|
    fullF_nil)

theorem full_issue (n : Nat) (v : Int) : FullC n v (.place .issue) J.issue :=
  full_struct [] []
    ["id", "name", "description", "source", "references", "type"]
    ["id", "name", "description", "source", "references", "type"] (fun _ => rfl) (by simp) rfl
    (by simp) (by decide +kernel) (by decide +kernel) ["id", "description", "type"] rfl (fun has W h hw ha => by
      first
      | trivial
      | (simp only [Place.Needs] at h ⊢
         simp only [List.mem_cons, List.not_mem_nil, or_false, forall_eq_or_imp, forall_eq] at hw ha
         grind)) (
    fullF_field .str rfl (full_plain rfl) (.inr (outR_plain rfl)) (fun _ => nofun) <|
    fullF_field .str rfl (full_plain rfl) (.inl rfl) (fun _ _ => fills_string) <|
    fullF_field .str rfl (full_plain rfl) (.inr (outR_plain rfl)) (fun _ => nofun) <|
    fullF_field (.place .issueSource) rfl (full_option (full_source_issueSource n v)) (.inl rfl) (fun _ _ => fills_option) <|
    fullF_field (.list .str) rfl (full_plain rfl) (.inl rfl) (fun _ _ => fills_list) <|
    fullF_field .str rfl (full_plain rfl) (.inr (outR_plain rfl)) (fun _ => nofun) <|
    fullF_nil)

theorem full_patch (n : Nat) (v : Int) : FullC n v (.place .patch) J.patch :=
  full_struct [] []
    ["diff", "resolves", "type"]
    ["diff", "resolves", "type"] (fun _ => rfl) (by simp) rfl
    (by simp) (by decide +kernel) (by decide +kernel) ["type"] rfl (fun has W h hw ha => by
      first
      | trivial
      | (simp only [Place.Needs] at h ⊢
         simp only [List.mem_cons, List.not_mem_nil, or_false, forall_eq_or_imp, forall_eq] at hw ha
         grind)) (
    fullF_field (.place .diff) rfl (full_option (full_diff n v)) (.inl rfl) (fun _ _ => fills_option) <|
    fullF_field (.list (.place .issue)) rfl (full_list (full_issue n v)) (.inl rfl) (fun _ _ => fills_list) <|
    fullF_field .str rfl (full_plain rfl) (.inr (outR_plain rfl)) (fun _ => nofun) <|
    fullF_nil)

theorem full_pedigreeWith (C : JCodec Component) (n : Nat) (v : Int) (hC : FullC n v (.place .component) C) :
    FullC n v (.place .componentPedigree) (J.pedigree C) :=
  full_struct [] []
    ["ancestors", "descendants", "variants", "commits", "patches", "notes"]
    ["ancestors", "descendants", "variants", "commits", "patches", "notes"] (fun _ => rfl) (by simp) rfl
    (by simp) (by decide +kernel) (by decide +kernel) [] rfl (fun has W h hw ha => by
      first
      | trivial
      | (simp only [Place.Needs] at h ⊢
         simp only [List.mem_cons, List.not_mem_nil, or_false, forall_eq_or_imp, forall_eq] at hw ha
         grind)) (
    fullF_field (.list (.place .component)) rfl (full_list (hC)) (.inl rfl) (fun _ _ => fills_list) <|
    fullF_field (.list (.place .component)) rfl (full_list (hC)) (.inl rfl) (fun _ _ => fills_list) <|
    fullF_field (.list (.place .component)) rfl (full_list (hC)) (.inl rfl) (fun _ _ => fills_list) <|
    fullF_field (.list (.place .commit)) rfl (full_list (full_commit n v)) (.inl rfl) (fun _ _ => fills_list) <|
    fullF_field (.list (.place .patch)) rfl (full_list (full_patch n v)) (.inl rfl) (fun _ _ => fills_list) <|
    fullF_field .str rfl (full_plain rfl) (.inl rfl) (fun _ _ => fills_string) <|
    fullF_nil)


theorem full_note (n : Nat) (v : Int) : FullC n v (.place .note) J.note :=
  full_struct [] []
    ["locale", "text"]
    ["locale", "text"] (fun _ => rfl) (by simp) rfl
    (by simp) (by decide +kernel) (by decide +kernel) ["text"] rfl (fun has W h hw ha => by
      first
      | trivial
      | (simp only [Place.Needs] at h ⊢
         simp only [List.mem_cons, List.not_mem_nil, or_false, forall_eq_or_imp, forall_eq] at hw ha
         grind)) (
    fullF_field .str rfl (full_plain rfl) (.inl rfl) (fun _ _ => fills_string) <|
    fullF_field (.place .attachment) rfl (full_attachedText n v) (.inr (outR_of_comp (comp_attachedText v _))) (fun _ => nofun) <|
    fullF_nil)

theorem full_releaseNotes (n : Nat) (v : Int) : FullC n v (.place .releaseNotes) J.releaseNotes :=
  full_struct [] []
    ["type", "title", "featuredImage", "socialImage", "description", "timestamp", "aliases", "tags", "resolves", "notes", "properties"]
    ["type", "title", "featuredImage", "socialImage", "description", "timestamp", "aliases", "tags", "resolves", "notes", "properties"] (fun _ => rfl) (by simp) rfl
    (by simp) (by decide +kernel) (by decide +kernel) ["type"] rfl (fun has W h hw ha => by
      first
      | trivial
      | (simp only [Place.Needs] at h ⊢
         simp only [List.mem_cons, List.not_mem_nil, or_false, forall_eq_or_imp, forall_eq] at hw ha
         grind)) (
    fullF_field .str rfl (full_plain rfl) (.inr (outR_plain rfl)) (fun _ => nofun) <|
    fullF_field .str rfl (full_plain rfl) (.inl rfl) (fun _ _ => fills_string) <|
    fullF_field .str rfl (full_plain rfl) (.inl rfl) (fun _ _ => fills_string) <|
    fullF_field .str rfl (full_plain rfl) (.inl rfl) (fun _ _ => fills_string) <|
    fullF_field .str rfl (full_plain rfl) (.inl rfl) (fun _ _ => fills_string) <|
    fullF_field .str rfl (full_plain rfl) (.inl rfl) (fun _ _ => fills_string) <|
    fullF_field (.list .str) rfl (full_plain rfl) (.inl rfl) (fun _ _ => fills_list) <|
    fullF_field (.list .str) rfl (full_plain rfl) (.inl rfl) (fun _ _ => fills_list) <|
    fullF_field (.list (.place .issue)) rfl (full_list (full_issue n v)) (.inl rfl) (fun _ _ => fills_list) <|
    fullF_field (.list (.place .note)) rfl (full_list (full_note n v)) (.inl rfl) (fun _ _ => fills_list) <|
    fullF_field (.list (.place .property)) rfl (full_list (full_property n v)) (.inl rfl) (fun _ _ => fills_list) <|
    fullF_nil)

theorem full_swid (n : Nat) (v : Int) : FullC n v (.place .swid) J.swid :=
  full_struct [] []
    ["text", "url", "tagId", "name", "version", "tagVersion", "patch"]
    ["text", "url", "tagId", "name", "version", "tagVersion", "patch"] (fun _ => rfl) (by simp) rfl
    (by simp) (by decide +kernel) (by decide +kernel) ["tagId", "name"] rfl (fun has W h hw ha => by
      first
      | trivial
      | (simp only [Place.Needs] at h ⊢
         simp only [List.mem_cons, List.not_mem_nil, or_false, forall_eq_or_imp, forall_eq] at hw ha
         grind)) (
    fullF_field (.place .attachment) rfl (full_option (full_attachedText n v)) (.inl rfl) (fun _ _ => fills_option) <|
    fullF_field .str rfl (full_plain rfl) (.inl rfl) (fun _ _ => fills_string) <|
    fullF_field .str rfl (full_plain rfl) (.inr (outR_plain rfl)) (fun _ => nofun) <|
    fullF_field .str rfl (full_plain rfl) (.inr (outR_plain rfl)) (fun _ => nofun) <|
    fullF_field .str rfl (full_plain rfl) (.inl rfl) (fun _ _ => fills_string) <|
    fullF_field .int rfl (full_plain rfl) (.inl rfl) (fun _ _ => fills_option) <|
    fullF_field .bool rfl (full_plain rfl) (.inl rfl) (fun _ _ => fills_option) <|
    fullF_nil)

theorem full_asserterChoice (n : Nat) (v : Int) : FullC n v (.alt .str (.place .asserter)) J.asserterChoice :=
  full_of_comp (comp_asserterChoice v)


theorem full_patentAssertion (n : Nat) (v : Int) : FullC n v (.place .patentAssertion) J.patentAssertion :=
  full_struct ["asserter"] []
    ["bom-ref", "patentRefs", "assertionType", "asserter", "notes"]
    ["bom-ref", "patentRefs", "assertionType", "asserter", "notes"] (fun _ => rfl) (fun ms h => by
      have h := (required_place.1 h.required).1
      simp only [List.mem_cons, List.not_mem_nil, or_false, forall_eq_or_imp, forall_eq]
      exact h.2) rfl
    (by simp) (by decide +kernel) (by decide +kernel) ["assertionType", "asserter"] rfl (fun has W h hw ha => by
      first
      | trivial
      | (simp only [Place.Needs] at h ⊢
         simp only [List.mem_cons, List.not_mem_nil, or_false, forall_eq_or_imp, forall_eq] at hw ha
         grind)) (
    fullF_field .str rfl (full_plain rfl) (.inl rfl) (fun _ _ => fills_string) <|
    fullF_field (.list .str) rfl (full_plain rfl) (.inl rfl) (fun _ _ => fills_list) <|
    fullF_field .str rfl (full_plain rfl) (.inr (outR_plain rfl)) (fun _ => nofun) <|
    fullF_req (.alt .str (.place .asserter)) rfl (full_option (full_asserterChoice n v)) (by simp) (fun _ => nofun) <|
    fullF_field .str rfl (full_plain rfl) (.inl rfl) (fun _ _ => fills_string) <|
    fullF_nil)

theorem full_componentWith (C : JCodec Component) (n : Nat) (v : Int) (hC : FullC n v (.place .component) C) :
    FullC (n + 1) v (.place .component) (J.componentWith C) :=
  have hP := full_pedigreeWith C n v hC
  full_struct' [] []
    ["bom-ref", "mime-type", "type", "supplier", "manufacturer", "author", "authors", "publisher", "group", "name", "version", "description", "scope", "hashes", "licenses", "copyright", "cpe", "purl", "omniborId", "swhid", "swid", "modified", "pedigree", "externalReferences", "properties", "components", "evidence", "releaseNotes", "modelCard", "data", "cryptoProperties", "tags", "isExternal", "patentAssertions", "versionRange", "signature"]
    ["bom-ref", "mime-type", "type", "supplier", "manufacturer", "author", "authors", "publisher", "group", "name", "version", "description", "scope", "hashes", "licenses", "copyright", "cpe", "purl", "omniborId", "swhid", "swid", "modified", "pedigree", "externalReferences", "properties", "components", "evidence", "releaseNotes", "modelCard", "data", "cryptoProperties", "tags", "isExternal", "patentAssertions", "versionRange", "signature"] (fun _ => rfl) (by simp) rfl
    (by simp) (by decide +kernel) (by decide +kernel) ["type", "name"] rfl (fun has W h hw ha => by
      first
      | trivial
      | (simp only [Place.Needs] at h ⊢
         simp only [List.mem_cons, List.not_mem_nil, or_false, forall_eq_or_imp, forall_eq] at hw ha
         grind)) (
    fullF_field .str rfl (full_plain rfl) (.inl rfl) (fun _ _ => fills_string) <|
    fullF_field .str rfl (full_plain rfl) (.inl rfl) (fun _ _ => fills_string) <|
    fullF_field .str rfl (full_plain rfl) (.inr (outR_plain rfl)) (fun _ => nofun) <|
    fullF_field (.place .organizationalEntity) rfl (full_option (full_organizationalEntity n v)) (.inl rfl) (fun _ _ => fills_option) <|
    fullF_field (.since SpecVersion1_6 (.place .organizationalEntity)) rfl (full_since (full_option (full_organizationalEntity n v))) (.inl rfl) (fun _ _ => fills_since (fills_option)) <|
    fullF_field .str rfl (full_plain rfl) (.inl rfl) (fun _ _ => fills_string) <|
    fullF_field (.since SpecVersion1_6 (.list (.place .organizationalContact))) rfl (full_since (full_list (full_organizationalContact n v))) (.inl rfl) (fun _ _ => fills_since (fills_list)) <|
    fullF_field .str rfl (full_plain rfl) (.inl rfl) (fun _ _ => fills_string) <|
    fullF_field .str rfl (full_plain rfl) (.inl rfl) (fun _ _ => fills_string) <|
    fullF_field .str rfl (full_plain rfl) (.inr (outR_plain rfl)) (fun _ => nofun) <|
    fullF_field .str rfl (full_plain rfl) (.inl rfl) (fun _ _ => fills_string) <|
    fullF_field .str rfl (full_plain rfl) (.inl rfl) (fun _ _ => fills_string) <|
    fullF_field .str rfl (full_plain rfl) (.inl rfl) (fun _ _ => fills_string) <|
    fullF_field (.list (.place .hash)) rfl (full_list (full_hash n v)) (.inl rfl) (fun _ _ => fills_list) <|
    fullF_field (.list (.place .licenseChoice)) rfl (full_list (full_licenseChoice n v)) (.inl rfl) (fun _ _ => fills_list) <|
    fullF_field .str rfl (full_plain rfl) (.inl rfl) (fun _ _ => fills_string) <|
    fullF_field .str rfl (full_plain rfl) (.inl rfl) (fun _ _ => fills_string) <|
    fullF_field .str rfl (full_plain rfl) (.inl rfl) (fun _ _ => fills_string) <|
    fullF_field (.since SpecVersion1_6 (.list .str)) rfl (full_plain rfl) (.inl rfl) (fun _ _ => fills_since (fills_list)) <|
    fullF_field (.since SpecVersion1_6 (.list .str)) rfl (full_plain rfl) (.inl rfl) (fun _ _ => fills_since (fills_list)) <|
    fullF_field (.place .swid) rfl (full_option (full_swid n v)) (.inl rfl) (fun _ _ => fills_option) <|
    fullF_field .bool rfl (full_plain rfl) (.inl rfl) (fun _ _ => fills_option) <|
    fullF_field (.place .componentPedigree) rfl (full_option (hP)) (.inl rfl) (fun _ _ => fills_option) <|
    fullF_field (.list (.place .externalReference)) rfl (full_list (full_externalReference n v)) (.inl rfl) (fun _ _ => fills_list) <|
    fullF_field (.since SpecVersion1_3 (.list (.place .property))) rfl (full_since (full_list (full_property n v))) (.inl rfl) (fun _ _ => fills_since (fills_list)) <|
    fullF_field (.list (.place .component)) rfl (full_list (hC)) (.inl rfl) (fun _ _ => fills_list) <|
    fullF_field (.since SpecVersion1_3 (.place .componentEvidence)) rfl (full_since (full_option (full_evidence n v))) (.inl rfl) (fun _ _ => fills_since (fills_option)) <|
    fullF_field (.since SpecVersion1_4 (.place .releaseNotes)) rfl (full_since (full_option (full_releaseNotes n v))) (.inl rfl) (fun _ _ => fills_since (fills_option)) <|
    fullF_field (.since SpecVersion1_5 (.place .modelCard)) rfl (full_since (full_option (full_mlModelCard n v))) (.inl rfl) (fun _ _ => fills_since (fills_option)) <|
    fullF_field (.since SpecVersion1_5 (.list (.place .componentData))) rfl (full_since (full_list (full_componentData n v))) (.inl rfl) (fun _ _ => fills_since (fills_list)) <|
    fullF_field (.since SpecVersion1_6 (.place .cryptoProperties)) rfl (full_since (full_option (full_cryptoProperties n v))) (.inl rfl) (fun _ _ => fills_since (fills_option)) <|
    fullF_field (.since SpecVersion1_6 (.list .str)) rfl (full_plain rfl) (.inl rfl) (fun _ _ => fills_since (fills_list)) <|
    fullF_field (.since SpecVersion1_7 .bool) rfl (full_plain rfl) (.inl rfl) (fun _ _ => fills_since (fills_option)) <|
    fullF_field (.since SpecVersion1_7 (.list (.place .patentAssertion))) rfl (full_since (full_list (full_patentAssertion n v))) (.inl rfl) (fun _ _ => fills_since (fills_list)) <|
    fullF_field (.since SpecVersion1_7 .str) rfl (full_plain rfl) (.inl rfl) (fun _ _ => fills_since (fills_string)) <|
    fullF_field (.since SpecVersion1_4 (.place .signature)) rfl (full_since (full_option (full_jsfSignature n v))) (.inl rfl) (fun _ _ => fills_since (fills_option)) <|
    fullF_nil)

theorem full_component (n : Nat) (v : Int) : FullC n v (.place .component) J.component := by
  induction n with
  | zero => exact ⟨fun _ => True, trivial, fun j old x hj => by omega⟩
  | succ n ih =>
    obtain ⟨I, hz, h⟩ := full_componentWith _ n v ih
    refine ⟨I, hz, fun j old x hj hs hi hd => ?_⟩
    rw [component_dec] at hd
    obtain ⟨hi, ho⟩ := h j old x hj hs hi hd
    exact ⟨hi, fun i hi => ho i (by rw [← component_enc]; exact hi)⟩


theorem full_dataClassification (n : Nat) (v : Int) : FullC n v (.place .serviceData) J.dataClassification :=
  full_struct [] []
    ["flow", "classification", "name", "description", "governance", "source", "destination"]
    ["flow", "classification", "name", "description", "governance", "source", "destination"] (fun _ => rfl) (by simp) rfl
    (by simp) (by decide +kernel) (by decide +kernel) ["flow", "classification"] rfl (fun has W h hw ha => by
      first
      | trivial
      | (simp only [Place.Needs] at h ⊢
         simp only [List.mem_cons, List.not_mem_nil, or_false, forall_eq_or_imp, forall_eq] at hw ha
         grind)) (
    fullF_field .str rfl (full_plain rfl) (.inr (outR_plain rfl)) (fun _ => nofun) <|
    fullF_field .str rfl (full_plain rfl) (.inr (outR_plain rfl)) (fun _ => nofun) <|
    fullF_field (.since SpecVersion1_5 .str) rfl (full_plain rfl) (.inl rfl) (fun _ _ => fills_since (fills_string)) <|
    fullF_field (.since SpecVersion1_5 .str) rfl (full_plain rfl) (.inl rfl) (fun _ _ => fills_since (fills_string)) <|
    fullF_field (.since SpecVersion1_5 (.place .dataGovernance)) rfl (full_since (full_option (full_dataGovernance n v))) (.inl rfl) (fun _ _ => fills_since (fills_option)) <|
    fullF_field (.since SpecVersion1_5 (.list .str)) rfl (full_plain rfl) (.inl rfl) (fun _ _ => fills_since (fills_list)) <|
    fullF_field (.since SpecVersion1_5 (.list .str)) rfl (full_plain rfl) (.inl rfl) (fun _ _ => fills_since (fills_list)) <|
    fullF_nil)

theorem full_serviceWith (C : JCodec Service) (n : Nat) (v : Int) (hC : FullC n v (.place .service) C) :
    FullC (n + 1) v (.place .service) (J.serviceWith C) :=
  full_struct' [] []
    ["bom-ref", "provider", "group", "name", "version", "description", "endpoints", "authenticated", "x-trust-boundary", "data", "licenses", "externalReferences", "properties", "services", "releaseNotes", "tags", "trustZone", "patentAssertions", "signature"]
    ["bom-ref", "provider", "group", "name", "version", "description", "endpoints", "authenticated", "x-trust-boundary", "data", "licenses", "externalReferences", "properties", "services", "releaseNotes", "tags", "trustZone", "patentAssertions", "signature"] (fun _ => rfl) (by simp) rfl
    (by simp) (by decide +kernel) (by decide +kernel) ["name"] rfl (fun has W h hw ha => by
      first
      | trivial
      | (simp only [Place.Needs] at h ⊢
         simp only [List.mem_cons, List.not_mem_nil, or_false, forall_eq_or_imp, forall_eq] at hw ha
         grind)) (
    fullF_field .str rfl (full_plain rfl) (.inl rfl) (fun _ _ => fills_string) <|
    fullF_field (.place .organizationalEntity) rfl (full_option (full_organizationalEntity n v)) (.inl rfl) (fun _ _ => fills_option) <|
    fullF_field .str rfl (full_plain rfl) (.inl rfl) (fun _ _ => fills_string) <|
    fullF_field .str rfl (full_plain rfl) (.inr (outR_plain rfl)) (fun _ => nofun) <|
    fullF_field .str rfl (full_plain rfl) (.inl rfl) (fun _ _ => fills_string) <|
    fullF_field .str rfl (full_plain rfl) (.inl rfl) (fun _ _ => fills_string) <|
    fullF_field (.list .str) rfl (full_plain rfl) (.inl rfl) (fun _ _ => fills_list) <|
    fullF_field .bool rfl (full_plain rfl) (.inl rfl) (fun _ _ => fills_option) <|
    fullF_field .bool rfl (full_plain rfl) (.inl rfl) (fun _ _ => fills_option) <|
    fullF_field (.list (.place .serviceData)) rfl (full_list (full_dataClassification n v)) (.inl rfl) (fun _ _ => fills_list) <|
    fullF_field (.list (.place .licenseChoice)) rfl (full_list (full_licenseChoice n v)) (.inl rfl) (fun _ _ => fills_list) <|
    fullF_field (.list (.place .externalReference)) rfl (full_list (full_externalReference n v)) (.inl rfl) (fun _ _ => fills_list) <|
    fullF_field (.since SpecVersion1_3 (.list (.place .property))) rfl (full_since (full_list (full_property n v))) (.inl rfl) (fun _ _ => fills_since (fills_list)) <|
    fullF_field (.list (.place .service)) rfl (full_list (hC)) (.inl rfl) (fun _ _ => fills_list) <|
    fullF_field (.since SpecVersion1_4 (.place .releaseNotes)) rfl (full_since (full_option (full_releaseNotes n v))) (.inl rfl) (fun _ _ => fills_since (fills_option)) <|
    fullF_field (.since SpecVersion1_6 (.list .str)) rfl (full_plain rfl) (.inl rfl) (fun _ _ => fills_since (fills_list)) <|
    fullF_field (.since SpecVersion1_5 .str) rfl (full_plain rfl) (.inl rfl) (fun _ _ => fills_since (fills_string)) <|
    fullF_field (.since SpecVersion1_7 (.list (.place .patentAssertion))) rfl (full_since (full_list (full_patentAssertion n v))) (.inl rfl) (fun _ _ => fills_since (fills_list)) <|
    fullF_field (.since SpecVersion1_4 (.place .signature)) rfl (full_since (full_option (full_jsfSignature n v))) (.inl rfl) (fun _ _ => fills_since (fills_option)) <|
    fullF_nil)

theorem full_service (n : Nat) (v : Int) : FullC n v (.place .service) J.service := by
  induction n with
  | zero => exact ⟨fun _ => True, trivial, fun j old x hj => by omega⟩
  | succ n ih =>
    obtain ⟨I, hz, h⟩ := full_serviceWith _ n v ih
    refine ⟨I, hz, fun j old x hj hs hi hd => ?_⟩
    rw [service_dec] at hd
    obtain ⟨hi, ho⟩ := h j old x hj hs hi hd
    exact ⟨hi, fun i hi => ho i (by rw [← service_enc]; exact hi)⟩


theorem full_annotator (n : Nat) (v : Int) : FullC n v (.place .annotationsAnnotator) J.annotator :=
  full_struct [] []
    ["organization", "individual", "component", "service"]
    ["organization", "individual", "component", "service"] (fun _ => rfl) (by simp) rfl
    (by simp) (by decide +kernel) (by decide +kernel) [] rfl (fun has W h hw ha => by
      first
      | trivial
      | (simp only [Place.Needs] at h ⊢
         simp only [List.mem_cons, List.not_mem_nil, or_false, forall_eq_or_imp, forall_eq] at hw ha
         grind)) (
    fullF_field (.place .organizationalEntity) rfl (full_option (full_organizationalEntity n v)) (.inl rfl) (fun _ _ => fills_option) <|
    fullF_field (.place .organizationalContact) rfl (full_option (full_organizationalContact n v)) (.inl rfl) (fun _ _ => fills_option) <|
    fullF_field (.place .component) rfl (full_option (full_component n v)) (.inl rfl) (fun _ _ => fills_option) <|
    fullF_field (.place .service) rfl (full_option (full_service n v)) (.inl rfl) (fun _ _ => fills_option) <|
    fullF_nil)

theorem full_annotation (n : Nat) (v : Int) : FullC n v (.place .annotations) J.annotation :=
  full_struct [] []
    ["bom-ref", "subjects", "annotator", "timestamp", "text", "signature"]
    ["bom-ref", "subjects", "annotator", "timestamp", "text", "signature"] (fun _ => rfl) (by simp) rfl
    (by simp) (by decide +kernel) (by decide +kernel) [] rfl (fun has W h hw ha => by
      first
      | trivial
      | (simp only [Place.Needs] at h ⊢
         simp only [List.mem_cons, List.not_mem_nil, or_false, forall_eq_or_imp, forall_eq] at hw ha
         grind)) (
    fullF_field .str rfl (full_plain rfl) (.inl rfl) (fun _ _ => fills_string) <|
    fullF_field (.list .str) rfl (full_plain rfl) (.inl rfl) (fun _ _ => fills_list) <|
    fullF_field (.place .annotationsAnnotator) rfl (full_option (full_annotator n v)) (.inl rfl) (fun _ _ => fills_option) <|
    fullF_field .str rfl (full_plain rfl) (.inl rfl) (fun _ _ => fills_string) <|
    fullF_field .str rfl (full_plain rfl) (.inl rfl) (fun _ _ => fills_string) <|
    fullF_field (.place .signature) rfl (full_option (full_jsfSignature n v)) (.inl rfl) (fun _ _ => fills_option) <|
    fullF_nil)

theorem full_assessor (n : Nat) (v : Int) : FullC n v (.place .assessors) J.assessor :=
  full_struct [] []
    ["bom-ref", "thirdParty", "organization"]
    ["bom-ref", "organization"] (fun _ => rfl) (by simp) rfl
    (by simp) (by decide +kernel) (by decide +kernel) [] rfl (fun has W h hw ha => by
      first
      | trivial
      | (simp only [Place.Needs] at h ⊢
         simp only [List.mem_cons, List.not_mem_nil, or_false, forall_eq_or_imp, forall_eq] at hw ha
         grind)) (
    fullF_field .str rfl (full_plain rfl) (.inl rfl) (fun _ _ => fills_bomReference) <|
    fullF_field .bool rfl (full_plain rfl) (.inl rfl) (fun h => absurd h (by simp)) <|
    fullF_field (.place .organizationalEntity) rfl (full_option (full_organizationalEntity n v)) (.inl rfl) (fun _ _ => fills_option) <|
    fullF_nil)

theorem full_attestationConformance (n : Nat) (v : Int) : FullC n v (.place .conformance) J.attestationConformance :=
  full_struct [] []
    ["score", "rationale", "mitigationStrategies"]
    ["score", "rationale", "mitigationStrategies"] (fun _ => rfl) (by simp) rfl
    (by simp) (by decide +kernel) (by decide +kernel) [] rfl (fun has W h hw ha => by
      first
      | trivial
      | (simp only [Place.Needs] at h ⊢
         simp only [List.mem_cons, List.not_mem_nil, or_false, forall_eq_or_imp, forall_eq] at hw ha
         grind)) (
    fullF_field .num rfl (full_plain rfl) (.inl rfl) (fun _ _ => fills_option) <|
    fullF_field .str rfl (full_plain rfl) (.inl rfl) (fun _ _ => fills_string) <|
    fullF_field (.list .str) rfl (full_plain rfl) (.inl rfl) (fun _ _ => fills_list) <|
    fullF_nil)

theorem full_attestationConfidence (n : Nat) (v : Int) : FullC n v (.place .confidence) J.attestationConfidence :=
  full_struct [] []
    ["score", "rationale"]
    ["score", "rationale"] (fun _ => rfl) (by simp) rfl
    (by simp) (by decide +kernel) (by decide +kernel) [] rfl (fun has W h hw ha => by
      first
      | trivial
      | (simp only [Place.Needs] at h ⊢
         simp only [List.mem_cons, List.not_mem_nil, or_false, forall_eq_or_imp, forall_eq] at hw ha
         grind)) (
    fullF_field .num rfl (full_plain rfl) (.inl rfl) (fun _ _ => fills_option) <|
    fullF_field .str rfl (full_plain rfl) (.inl rfl) (fun _ _ => fills_string) <|
    fullF_nil)

theorem full_attestationMap (n : Nat) (v : Int) : FullC n v (.place .attestationMap) J.attestationMap :=
  full_struct [] []
    ["requirement", "claims", "counterClaims", "conformance", "confidence"]
    ["requirement", "claims", "counterClaims", "conformance", "confidence"] (fun _ => rfl) (by simp) rfl
    (by simp) (by decide +kernel) (by decide +kernel) [] rfl (fun has W h hw ha => by
      first
      | trivial
      | (simp only [Place.Needs] at h ⊢
         simp only [List.mem_cons, List.not_mem_nil, or_false, forall_eq_or_imp, forall_eq] at hw ha
         grind)) (
    fullF_field .str rfl (full_plain rfl) (.inl rfl) (fun _ _ => fills_string) <|
    fullF_field (.list .str) rfl (full_plain rfl) (.inl rfl) (fun _ _ => fills_list) <|
    fullF_field (.list .str) rfl (full_plain rfl) (.inl rfl) (fun _ _ => fills_list) <|
    fullF_field (.place .conformance) rfl (full_option (full_attestationConformance n v)) (.inl rfl) (fun _ _ => fills_option) <|
    fullF_field (.place .confidence) rfl (full_option (full_attestationConfidence n v)) (.inl rfl) (fun _ _ => fills_option) <|
    fullF_nil)

theorem full_attestation (n : Nat) (v : Int) : FullC n v (.place .attestations) J.attestation :=
  full_struct [] []
    ["summary", "assessor", "map", "signature"]
    ["summary", "assessor", "map", "signature"] (fun _ => rfl) (by simp) rfl
    (by simp) (by decide +kernel) (by decide +kernel) [] rfl (fun has W h hw ha => by
      first
      | trivial
      | (simp only [Place.Needs] at h ⊢
         simp only [List.mem_cons, List.not_mem_nil, or_false, forall_eq_or_imp, forall_eq] at hw ha
         grind)) (
    fullF_field .str rfl (full_plain rfl) (.inl rfl) (fun _ _ => fills_string) <|
    fullF_field .str rfl (full_plain rfl) (.inl rfl) (fun _ _ => fills_bomReference) <|
    fullF_field (.list (.place .attestationMap)) rfl (full_list (full_attestationMap n v)) (.inl rfl) (fun _ _ => fills_list) <|
    fullF_field (.place .signature) rfl (full_option (full_jsfSignature n v)) (.inl rfl) (fun _ _ => fills_option) <|
    fullF_nil)

theorem full_composition (n : Nat) (v : Int) : FullC n v (.place .compositions) J.composition :=
  full_struct [] []
    ["bom-ref", "aggregate", "assemblies", "dependencies", "vulnerabilities", "signature"]
    ["bom-ref", "aggregate", "assemblies", "dependencies", "vulnerabilities", "signature"] (fun _ => rfl) (by simp) rfl
    (by simp) (by decide +kernel) (by decide +kernel) ["aggregate"] rfl (fun has W h hw ha => by
      first
      | trivial
      | (simp only [Place.Needs] at h ⊢
         simp only [List.mem_cons, List.not_mem_nil, or_false, forall_eq_or_imp, forall_eq] at hw ha
         grind)) (
    fullF_field (.since SpecVersion1_5 .str) rfl (full_plain rfl) (.inl rfl) (fun _ _ => fills_since (fills_string)) <|
    fullF_field .str rfl (full_plain rfl) (.inr (outR_plain rfl)) (fun _ => nofun) <|
    fullF_field (.list .str) rfl (full_plain rfl) (.inl rfl) (fun _ _ => fills_list) <|
    fullF_field (.list .str) rfl (full_plain rfl) (.inl rfl) (fun _ _ => fills_list) <|
    fullF_field (.since SpecVersion1_5 (.list .str)) rfl (full_plain rfl) (.inl rfl) (fun _ _ => fills_since (fills_list)) <|
    fullF_field (.since SpecVersion1_4 (.place .signature)) rfl (full_since (full_option (full_jsfSignature n v))) (.inl rfl) (fun _ _ => fills_since (fills_option)) <|
    fullF_nil)

theorem full_claim (n : Nat) (v : Int) : FullC n v (.place .claims) J.claim :=
  full_struct [] []
    ["bom-ref", "target", "predicate", "mitigationStrategies", "reasoning", "evidence", "counterEvidence", "externalReferences", "signature"]
    ["bom-ref", "target", "predicate", "mitigationStrategies", "reasoning", "evidence", "counterEvidence", "externalReferences", "signature"] (fun _ => rfl) (by simp) rfl
    (by simp) (by decide +kernel) (by decide +kernel) [] rfl (fun has W h hw ha => by
      first
      | trivial
      | (simp only [Place.Needs] at h ⊢
         simp only [List.mem_cons, List.not_mem_nil, or_false, forall_eq_or_imp, forall_eq] at hw ha
         grind)) (
    fullF_field .str rfl (full_plain rfl) (.inl rfl) (fun _ _ => fills_string) <|
    fullF_field .str rfl (full_plain rfl) (.inl rfl) (fun _ _ => fills_bomReference) <|
    fullF_field .str rfl (full_plain rfl) (.inl rfl) (fun _ _ => fills_string) <|
    fullF_field (.list .str) rfl (full_plain rfl) (.inl rfl) (fun _ _ => fills_list) <|
    fullF_field .str rfl (full_plain rfl) (.inl rfl) (fun _ _ => fills_string) <|
    fullF_field (.list .str) rfl (full_plain rfl) (.inl rfl) (fun _ _ => fills_list) <|
    fullF_field (.list .str) rfl (full_plain rfl) (.inl rfl) (fun _ _ => fills_list) <|
    fullF_field (.list (.place .externalReference)) rfl (full_list (full_externalReference n v)) (.inl rfl) (fun _ _ => fills_list) <|
    fullF_field (.place .signature) rfl (full_option (full_jsfSignature n v)) (.inl rfl) (fun _ _ => fills_option) <|
    fullF_nil)

theorem full_evidenceDataContents (n : Nat) (v : Int) : FullC n v (.place .evidenceDataContents) J.evidenceDataContents :=
  full_struct [] []
    ["attachment", "url"]
    ["attachment", "url"] (fun _ => rfl) (by simp) rfl
    (by simp) (by decide +kernel) (by decide +kernel) [] rfl (fun has W h hw ha => by
      first
      | trivial
      | (simp only [Place.Needs] at h ⊢
         simp only [List.mem_cons, List.not_mem_nil, or_false, forall_eq_or_imp, forall_eq] at hw ha
         grind)) (
    fullF_field (.place .attachment) rfl (full_option (full_attachedText n v)) (.inl rfl) (fun _ _ => fills_option) <|
    fullF_field .str rfl (full_plain rfl) (.inl rfl) (fun _ _ => fills_string) <|
    fullF_nil)

theorem full_evidenceData (n : Nat) (v : Int) : FullC n v (.place .evidenceData) J.evidenceData :=
  full_struct [] []
    ["name", "contents", "classification", "sensitiveData", "governance"]
    ["name", "contents", "classification", "sensitiveData", "governance"] (fun _ => rfl) (by simp) rfl
    (by simp) (by decide +kernel) (by decide +kernel) [] rfl (fun has W h hw ha => by
      first
      | trivial
      | (simp only [Place.Needs] at h ⊢
         simp only [List.mem_cons, List.not_mem_nil, or_false, forall_eq_or_imp, forall_eq] at hw ha
         grind)) (
    fullF_field .str rfl (full_plain rfl) (.inl rfl) (fun _ _ => fills_string) <|
    fullF_field (.place .evidenceDataContents) rfl (full_option (full_evidenceDataContents n v)) (.inl rfl) (fun _ _ => fills_option) <|
    fullF_field .str rfl (full_plain rfl) (.inl rfl) (fun _ _ => fills_option) <|
    fullF_field (.list .str) rfl (full_plain rfl) (.inl rfl) (fun _ _ => fills_list) <|
    fullF_field (.place .dataGovernance) rfl (full_option (full_dataGovernance n v)) (.inl rfl) (fun _ _ => fills_option) <|
    fullF_nil)

theorem full_declarationEvidence (n : Nat) (v : Int) : FullC n v (.place .evidence) J.declarationEvidence :=
  full_struct [] []
    ["bom-ref", "propertyName", "description", "data", "created", "expires", "author", "reviewer", "signature"]
    ["bom-ref", "propertyName", "description", "data", "created", "expires", "author", "reviewer", "signature"] (fun _ => rfl) (by simp) rfl
    (by simp) (by decide +kernel) (by decide +kernel) [] rfl (fun has W h hw ha => by
      first
      | trivial
      | (simp only [Place.Needs] at h ⊢
         simp only [List.mem_cons, List.not_mem_nil, or_false, forall_eq_or_imp, forall_eq] at hw ha
         grind)) (
    fullF_field .str rfl (full_plain rfl) (.inl rfl) (fun _ _ => fills_string) <|
    fullF_field .str rfl (full_plain rfl) (.inl rfl) (fun _ _ => fills_string) <|
    fullF_field .str rfl (full_plain rfl) (.inl rfl) (fun _ _ => fills_string) <|
    fullF_field (.list (.place .evidenceData)) rfl (full_list (full_evidenceData n v)) (.inl rfl) (fun _ _ => fills_list) <|
    fullF_field .str rfl (full_plain rfl) (.inl rfl) (fun _ _ => fills_string) <|
    fullF_field .str rfl (full_plain rfl) (.inl rfl) (fun _ _ => fills_string) <|
    fullF_field (.place .organizationalContact) rfl (full_option (full_organizationalContact n v)) (.inl rfl) (fun _ _ => fills_option) <|
    fullF_field (.place .organizationalContact) rfl (full_option (full_organizationalContact n v)) (.inl rfl) (fun _ _ => fills_option) <|
    fullF_field (.place .signature) rfl (full_option (full_jsfSignature n v)) (.inl rfl) (fun _ _ => fills_option) <|
    fullF_nil)

theorem full_targets (n : Nat) (v : Int) : FullC n v (.place .targets) J.targets :=
  full_struct [] []
    ["organizations", "components", "services"]
    ["organizations", "components", "services"] (fun _ => rfl) (by simp) rfl
    (by simp) (by decide +kernel) (by decide +kernel) [] rfl (fun has W h hw ha => by
      first
      | trivial
      | (simp only [Place.Needs] at h ⊢
         simp only [List.mem_cons, List.not_mem_nil, or_false, forall_eq_or_imp, forall_eq] at hw ha
         grind)) (
    fullF_field (.list (.place .organizationalEntity)) rfl (full_list (full_organizationalEntity n v)) (.inl rfl) (fun _ _ => fills_list) <|
    fullF_field (.list (.place .component)) rfl (full_list (full_component n v)) (.inl rfl) (fun _ _ => fills_list) <|
    fullF_field (.list (.place .service)) rfl (full_list (full_service n v)) (.inl rfl) (fun _ _ => fills_list) <|
    fullF_nil)

theorem full_signatory (n : Nat) (v : Int) : FullC n v (.place .affirmationSignatories) J.signatory :=
  full_struct [] []
    ["name", "role", "signature", "organization", "externalReference"]
    ["name", "role", "signature", "organization", "externalReference"] (fun _ => rfl) (by simp) rfl
    (by simp) (by decide +kernel) (by decide +kernel) [] rfl (fun has W h hw ha => by
      first
      | trivial
      | (simp only [Place.Needs] at h ⊢
         simp only [List.mem_cons, List.not_mem_nil, or_false, forall_eq_or_imp, forall_eq] at hw ha
         grind)) (
    fullF_field .str rfl (full_plain rfl) (.inl rfl) (fun _ _ => fills_string) <|
    fullF_field .str rfl (full_plain rfl) (.inl rfl) (fun _ _ => fills_string) <|
    fullF_field (.place .signature) rfl (full_option (full_jsfSignature n v)) (.inl rfl) (fun _ _ => fills_option) <|
    fullF_field (.place .organizationalEntity) rfl (full_option (full_organizationalEntity n v)) (.inl rfl) (fun _ _ => fills_option) <|
    fullF_field (.place .externalReference) rfl (full_option (full_externalReference n v)) (.inl rfl) (fun _ _ => fills_option) <|
    fullF_nil)

theorem full_affirmation (n : Nat) (v : Int) : FullC n v (.place .affirmation) J.affirmation :=
  full_struct [] []
    ["statement", "signatories", "signature"]
    ["statement", "signatories", "signature"] (fun _ => rfl) (by simp) rfl
    (by simp) (by decide +kernel) (by decide +kernel) [] rfl (fun has W h hw ha => by
      first
      | trivial
      | (simp only [Place.Needs] at h ⊢
         simp only [List.mem_cons, List.not_mem_nil, or_false, forall_eq_or_imp, forall_eq] at hw ha
         grind)) (
    fullF_field .str rfl (full_plain rfl) (.inl rfl) (fun _ _ => fills_string) <|
    fullF_field (.list (.place .affirmationSignatories)) rfl (full_list (full_signatory n v)) (.inl rfl) (fun _ _ => fills_list) <|
    fullF_field (.place .signature) rfl (full_option (full_jsfSignature n v)) (.inl rfl) (fun _ _ => fills_option) <|
    fullF_nil)

theorem full_declarations (n : Nat) (v : Int) : FullC n v (.place .bomDeclarations) J.declarations :=
  full_struct [] []
    ["assessors", "attestations", "claims", "evidence", "targets", "affirmation", "signature"]
    ["assessors", "attestations", "claims", "evidence", "targets", "affirmation", "signature"] (fun _ => rfl) (by simp) rfl
    (by simp) (by decide +kernel) (by decide +kernel) [] rfl (fun has W h hw ha => by
      first
      | trivial
      | (simp only [Place.Needs] at h ⊢
         simp only [List.mem_cons, List.not_mem_nil, or_false, forall_eq_or_imp, forall_eq] at hw ha
         grind)) (
    fullF_field (.list (.place .assessors)) rfl (full_list (full_assessor n v)) (.inl rfl) (fun _ _ => fills_list) <|
    fullF_field (.list (.place .attestations)) rfl (full_list (full_attestation n v)) (.inl rfl) (fun _ _ => fills_list) <|
    fullF_field (.list (.place .claims)) rfl (full_list (full_claim n v)) (.inl rfl) (fun _ _ => fills_list) <|
    fullF_field (.list (.place .evidence)) rfl (full_list (full_declarationEvidence n v)) (.inl rfl) (fun _ _ => fills_list) <|
    fullF_field (.place .targets) rfl (full_option (full_targets n v)) (.inl rfl) (fun _ _ => fills_option) <|
    fullF_field (.place .affirmation) rfl (full_option (full_affirmation n v)) (.inl rfl) (fun _ _ => fills_option) <|
    fullF_field (.place .signature) rfl (full_option (full_jsfSignature n v)) (.inl rfl) (fun _ _ => fills_option) <|
    fullF_nil)

theorem full_priorityApplication (n : Nat) (v : Int) : FullC n v (.place .priorityApplication) J.priorityApplication :=
  full_struct [] []
    ["applicationNumber", "jurisdiction", "filingDate"]
    ["applicationNumber", "jurisdiction", "filingDate"] (fun _ => rfl) (by simp) rfl
    (by simp) (by decide +kernel) (by decide +kernel) ["applicationNumber", "jurisdiction", "filingDate"] rfl (fun has W h hw ha => by
      first
      | trivial
      | (simp only [Place.Needs] at h ⊢
         simp only [List.mem_cons, List.not_mem_nil, or_false, forall_eq_or_imp, forall_eq] at hw ha
         grind)) (
    fullF_field .str rfl (full_plain rfl) (.inr (outR_plain rfl)) (fun _ => nofun) <|
    fullF_field .str rfl (full_plain rfl) (.inr (outR_plain rfl)) (fun _ => nofun) <|
    fullF_field .str rfl (full_plain rfl) (.inr (outR_plain rfl)) (fun _ => nofun) <|
    fullF_nil)

theorem full_patent (n : Nat) (v : Int) : FullC n v (.place .patentOrFamily) J.patent :=
  full_struct [] ["familyId", "members"]
    ["bom-ref", "patentNumber", "applicationNumber", "jurisdiction", "priorityApplication", "publicationNumber", "title", "abstract", "filingDate", "grantDate", "patentExpirationDate", "patentLegalStatus", "patentAssignee", "externalReferences"]
    ["bom-ref", "patentNumber", "applicationNumber", "jurisdiction", "priorityApplication", "publicationNumber", "title", "abstract", "filingDate", "grantDate", "patentExpirationDate", "patentLegalStatus", "patentAssignee", "externalReferences"] (fun _ => rfl) (by simp) rfl
    (by simp) (by decide +kernel) (by decide +kernel) ["patentNumber", "jurisdiction", "patentLegalStatus"] rfl (fun has W h hw ha => by
      first
      | trivial
      | (simp only [Place.Needs] at h ⊢
         simp only [List.mem_cons, List.not_mem_nil, or_false, forall_eq_or_imp, forall_eq] at hw ha
         grind)) (
    fullF_field .str rfl (full_plain rfl) (.inl rfl) (fun _ _ => fills_string) <|
    fullF_field .str rfl (full_plain rfl) (.inr (outR_plain rfl)) (fun _ => nofun) <|
    fullF_field .str rfl (full_plain rfl) (.inl rfl) (fun _ _ => fills_string) <|
    fullF_field .str rfl (full_plain rfl) (.inr (outR_plain rfl)) (fun _ => nofun) <|
    fullF_field (.place .priorityApplication) rfl (full_option (full_priorityApplication n v)) (.inl rfl) (fun _ _ => fills_option) <|
    fullF_field .str rfl (full_plain rfl) (.inl rfl) (fun _ _ => fills_string) <|
    fullF_field .str rfl (full_plain rfl) (.inl rfl) (fun _ _ => fills_string) <|
    fullF_field .str rfl (full_plain rfl) (.inl rfl) (fun _ _ => fills_string) <|
    fullF_field .str rfl (full_plain rfl) (.inl rfl) (fun _ _ => fills_string) <|
    fullF_field .str rfl (full_plain rfl) (.inl rfl) (fun _ _ => fills_string) <|
    fullF_field .str rfl (full_plain rfl) (.inl rfl) (fun _ _ => fills_string) <|
    fullF_field .str rfl (full_plain rfl) (.inr (outR_plain rfl)) (fun _ => nofun) <|
    fullF_field (.list (.place .patentAssignee)) rfl (full_list (full_organizationalEntityOrContact_patentAssignee n v)) (.inl rfl) (fun _ _ => fills_list) <|
    fullF_field (.list (.place .externalReference)) rfl (full_list (full_externalReference n v)) (.inl rfl) (fun _ _ => fills_list) <|
    fullF_nil)

theorem full_patentFamily (n : Nat) (v : Int) : FullC n v (.place .patentOrFamily) J.patentFamily :=
  full_struct [] ["patentNumber", "applicationNumber", "jurisdiction", "publicationNumber", "title", "abstract", "filingDate", "grantDate", "patentExpirationDate", "patentLegalStatus", "patentAssignee"]
    ["bom-ref", "familyId", "priorityApplication", "members", "externalReferences"]
    ["bom-ref", "familyId", "priorityApplication", "members", "externalReferences"] (fun _ => rfl) (by simp) rfl
    (by simp) (by decide +kernel) (by decide +kernel) ["familyId"] rfl (fun has W h hw ha => by
      first
      | trivial
      | (simp only [Place.Needs] at h ⊢
         simp only [List.mem_cons, List.not_mem_nil, or_false, forall_eq_or_imp, forall_eq] at hw ha
         grind)) (
    fullF_field .str rfl (full_plain rfl) (.inl rfl) (fun _ _ => fills_string) <|
    fullF_field .str rfl (full_plain rfl) (.inr (outR_plain rfl)) (fun _ => nofun) <|
    fullF_field (.place .priorityApplication) rfl (full_option (full_priorityApplication n v)) (.inl rfl) (fun _ _ => fills_option) <|
    fullF_field (.list .str) rfl (full_plain rfl) (.inl rfl) (fun _ _ => fills_list) <|
    fullF_field (.list (.place .externalReference)) rfl (full_list (full_externalReference n v)) (.inl rfl) (fun _ _ => fills_list) <|
    fullF_nil)

theorem full_patentChoice (n : Nat) (v : Int) : FullC n v (.place .patentOrFamily) J.patentChoice := by
  obtain ⟨I, hz, h⟩ := full_patent n v
  obtain ⟨L, lz, hl⟩ := full_patentFamily n v
  let A : PatentChoice → Prop := fun x => (∀ d ∈ x.patent, OutR v (.place .patentOrFamily) J.patent d) ∧
      (∀ d ∈ x.patentFamily, OutR v (.place .patentOrFamily) J.patentFamily d)
  refine ⟨A, ⟨(by intro d hd; cases hd), (by intro d hd; cases hd)⟩, ?_⟩
  intro j old x hj hs hi hd
  suffices h : A x ∧ (x.patent ≠ none ∨ x.patentFamily ≠ none) by
    refine ⟨h.1, ?_⟩
    obtain ⟨⟨h1, h2⟩, h3⟩ := h
    obtain ⟨a, b⟩ := x
    intro j hj
    cases a <;> cases b <;> simp only [J.patentChoice] at hj
    · simp at h3
    · exact h2 _ rfl j hj
    · exact h1 _ rfl j hj
    · exact h1 _ rfl j hj
  simp only [J.patentChoice] at hd
  split at hd
  · cases hd
  · split at hd
    · split at hd
      · cases hd
      · rename_i q he
        simp only [Option.some.injEq] at hd
        subst hd
        exact ⟨⟨hi.1, fun y hy => by cases hy; exact (hl _ _ _ hj hs lz he).2⟩, by simp⟩
    · split at hd
      · cases hd
      · rename_i q he
        simp only [Option.some.injEq] at hd
        subst hd
        exact ⟨⟨fun y hy => by cases hy; exact (h _ _ _ hj hs hz he).2, hi.2⟩, by simp⟩


theorem full_standardRequirement (n : Nat) (v : Int) : FullC n v (.place .standardRequirements) J.standardRequirement :=
  full_struct [] []
    ["bom-ref", "identifier", "title", "text", "descriptions", "openCre", "parent", "properties", "externalReferences"]
    ["bom-ref", "identifier", "title", "text", "descriptions", "openCre", "parent", "properties", "externalReferences"] (fun _ => rfl) (by simp) rfl
    (by simp) (by decide +kernel) (by decide +kernel) [] rfl (fun has W h hw ha => by
      first
      | trivial
      | (simp only [Place.Needs] at h ⊢
         simp only [List.mem_cons, List.not_mem_nil, or_false, forall_eq_or_imp, forall_eq] at hw ha
         grind)) (
    fullF_field .str rfl (full_plain rfl) (.inl rfl) (fun _ _ => fills_string) <|
    fullF_field .str rfl (full_plain rfl) (.inl rfl) (fun _ _ => fills_string) <|
    fullF_field .str rfl (full_plain rfl) (.inl rfl) (fun _ _ => fills_string) <|
    fullF_field .str rfl (full_plain rfl) (.inl rfl) (fun _ _ => fills_string) <|
    fullF_field (.list .str) rfl (full_plain rfl) (.inl rfl) (fun _ _ => fills_list) <|
    fullF_field (.list .str) rfl (full_plain rfl) (.inl rfl) (fun _ _ => fills_list) <|
    fullF_field .str rfl (full_plain rfl) (.inl rfl) (fun _ _ => fills_string) <|
    fullF_field (.list (.place .property)) rfl (full_list (full_property n v)) (.inl rfl) (fun _ _ => fills_list) <|
    fullF_field (.list (.place .externalReference)) rfl (full_list (full_externalReference n v)) (.inl rfl) (fun _ _ => fills_list) <|
    fullF_nil)

theorem full_standardLevel (n : Nat) (v : Int) : FullC n v (.place .standardLevels) J.standardLevel :=
  full_struct [] []
    ["bom-ref", "identifier", "title", "description", "requirements"]
    ["bom-ref", "identifier", "title", "description", "requirements"] (fun _ => rfl) (by simp) rfl
    (by simp) (by decide +kernel) (by decide +kernel) [] rfl (fun has W h hw ha => by
      first
      | trivial
      | (simp only [Place.Needs] at h ⊢
         simp only [List.mem_cons, List.not_mem_nil, or_false, forall_eq_or_imp, forall_eq] at hw ha
         grind)) (
    fullF_field .str rfl (full_plain rfl) (.inl rfl) (fun _ _ => fills_string) <|
    fullF_field .str rfl (full_plain rfl) (.inl rfl) (fun _ _ => fills_string) <|
    fullF_field .str rfl (full_plain rfl) (.inl rfl) (fun _ _ => fills_string) <|
    fullF_field .str rfl (full_plain rfl) (.inl rfl) (fun _ _ => fills_string) <|
    fullF_field (.list .str) rfl (full_plain rfl) (.inl rfl) (fun _ _ => fills_list) <|
    fullF_nil)

theorem full_standardDefinition (n : Nat) (v : Int) : FullC n v (.place .standard) J.standardDefinition :=
  full_struct [] []
    ["bom-ref", "name", "version", "description", "owner", "requirements", "levels", "externalReferences", "signature"]
    ["bom-ref", "name", "version", "description", "owner", "requirements", "levels", "externalReferences", "signature"] (fun _ => rfl) (by simp) rfl
    (by simp) (by decide +kernel) (by decide +kernel) [] rfl (fun has W h hw ha => by
      first
      | trivial
      | (simp only [Place.Needs] at h ⊢
         simp only [List.mem_cons, List.not_mem_nil, or_false, forall_eq_or_imp, forall_eq] at hw ha
         grind)) (
    fullF_field .str rfl (full_plain rfl) (.inl rfl) (fun _ _ => fills_string) <|
    fullF_field .str rfl (full_plain rfl) (.inl rfl) (fun _ _ => fills_string) <|
    fullF_field .str rfl (full_plain rfl) (.inl rfl) (fun _ _ => fills_string) <|
    fullF_field .str rfl (full_plain rfl) (.inl rfl) (fun _ _ => fills_string) <|
    fullF_field .str rfl (full_plain rfl) (.inl rfl) (fun _ _ => fills_string) <|
    fullF_field (.list (.place .standardRequirements)) rfl (full_list (full_standardRequirement n v)) (.inl rfl) (fun _ _ => fills_list) <|
    fullF_field (.list (.place .standardLevels)) rfl (full_list (full_standardLevel n v)) (.inl rfl) (fun _ _ => fills_list) <|
    fullF_field (.list (.place .externalReference)) rfl (full_list (full_externalReference n v)) (.inl rfl) (fun _ _ => fills_list) <|
    fullF_field (.place .signature) rfl (full_option (full_jsfSignature n v)) (.inl rfl) (fun _ _ => fills_option) <|
    fullF_nil)

theorem full_definitions (n : Nat) (v : Int) : FullC n v (.place .bomDefinitions) J.definitions :=
  full_struct [] []
    ["standards", "patents"]
    ["standards", "patents"] (fun _ => rfl) (by simp) rfl
    (by simp) (by decide +kernel) (by decide +kernel) [] rfl (fun has W h hw ha => by
      first
      | trivial
      | (simp only [Place.Needs] at h ⊢
         simp only [List.mem_cons, List.not_mem_nil, or_false, forall_eq_or_imp, forall_eq] at hw ha
         grind)) (
    fullF_field (.list (.place .standard)) rfl (full_list (full_standardDefinition n v)) (.inl rfl) (fun _ _ => fills_list) <|
    fullF_field (.since SpecVersion1_7 (.list (.place .patentOrFamily))) rfl (full_since (full_list (full_patentChoice n v))) (.inl rfl) (fun _ _ => fills_since (fills_list)) <|
    fullF_nil)

theorem full_dependency (n : Nat) (v : Int) : FullC n v (.place .dependency) J.dependency :=
  full_struct [] []
    ["ref", "dependsOn", "provides"]
    ["ref", "dependsOn", "provides"] (fun _ => rfl) (by simp) rfl
    (by simp) (by decide +kernel) (by decide +kernel) ["ref"] rfl (fun has W h hw ha => by
      first
      | trivial
      | (simp only [Place.Needs] at h ⊢
         simp only [List.mem_cons, List.not_mem_nil, or_false, forall_eq_or_imp, forall_eq] at hw ha
         grind)) (
    fullF_field .str rfl (full_plain rfl) (.inr (outR_plain rfl)) (fun _ => nofun) <|
    fullF_field (.list .str) rfl (full_plain rfl) (.inl rfl) (fun _ _ => fills_list) <|
    fullF_field (.since SpecVersion1_6 (.list .str)) rfl (full_plain rfl) (.inl rfl) (fun _ _ => fills_since (fills_list)) <|
    fullF_nil)

theorem full_resourceReferenceChoice (n : Nat) (v : Int) : FullC n v (.place .resourceReferenceChoice) J.resourceReferenceChoice :=
  full_struct [] []
    ["ref", "externalReference"]
    ["ref", "externalReference"] (fun _ => rfl) (by simp) rfl
    (by simp) (by decide +kernel) (by decide +kernel) [] rfl (fun has W h hw ha => by
      first
      | trivial
      | (simp only [Place.Needs] at h ⊢
         simp only [List.mem_cons, List.not_mem_nil, or_false, forall_eq_or_imp, forall_eq] at hw ha
         grind)) (
    fullF_field .str rfl (full_plain rfl) (.inl rfl) (fun _ _ => fills_string) <|
    fullF_field (.place .externalReference) rfl (full_option (full_externalReference n v)) (.inl rfl) (fun _ _ => fills_option) <|
    fullF_nil)

theorem full_environmentVariableChoice (n : Nat) (v : Int) : FullC n v (.alt .str (.place .property)) J.environmentVariableChoice := by
  refine ⟨fun _ => True, trivial, fun j old x _ hs _ hd =>
    ⟨trivial, fun i hi => (comp_environmentVariableChoice v x i hi).2 fun hv => ?_⟩⟩
  rcases hs.alt with hs | hs
  · obtain ⟨t, rfl⟩ := conforms_str.1 hs.declared
    simp only [J.environmentVariableChoice, Option.some.injEq] at hd
    subst hd
    left
    rintro rfl
    exact hs.ample .blank
  · obtain ⟨ms, rfl⟩ := conforms_place_obj hs.declared
    simp only [J.environmentVariableChoice] at hd
    split at hd
    · cases hd
    · rename_i p he
      split at hd
      · rename_i hp
        simp only [Option.some.injEq] at hd
        subst hd
        right
        refine ⟨p, rfl, ?_⟩
        simpa [Property.isZero, Classical.or_iff_not_imp_left] using hp
      · rename_i hp
        exfalso
        -- the name would be written, were it left out when empty
        let F : JFields Property.P := .field "name" true JCodec.string (.field "value" true JCodec.string .nil)
        obtain ⟨K, kz, kw, ks, ko⟩ : FullF (Json.depthM ms + 1) v .property [] ["name"] F :=
          fullF_field .str rfl (full_plain rfl) (.inl rfl) (fun _ _ => fills_string) <|
          fullF_field .str rfl (full_plain rfl) (.inl rfl) (fun _ _ => fills_string) fullF_nil
        simp only [J.property, JCodec.struct, Option.map_eq_some_iff] at he
        obtain ⟨b, he, rfl⟩ := he
        have same : ∀ (l : List (String × Json)) (c : Property.P), F.decMembers l c = J.propertyFields.decMembers l c := by
          intro l
          induction l with
          | nil => intro c; rfl
          | cons m l ih =>
            intro c
            rw [decMembers_cons, decMembers_cons]
            rw [show J.propertyFields.set m.1 m.2 c = F.set m.1 m.2 c from rfl]
            cases F.set m.1 m.2 c with
            | none => rfl
            | some d => exact ih d
        rw [← same] at he
        have he : F.decMembers ms F.zero = some b := he
        have hk := decMembers_full (names := ["name", "value"]) (lost := []) rfl (by decide +kernel) (by decide +kernel) kw ks
          ms _ b _ (fun m hm => ⟨by have := depth_member hm; omega, hs.member m hm⟩) kz he
        have hw := (ko b _ (by simp) hk).1 "name" (by simp [F, JFields.names]) (by simp)
          (.inr ((required_place.1 hs.required).1 hv))
        simp only [F, JFields.Writes, true_and, nem_string] at hw
        simp only [Property.ofP, Property.isZero, Classical.not_not] at hp
        have hp := of_decide_eq_true hp
        rcases hw with hw | hw | hw
        · exact hw trivial hp.1
        · exact absurd hw.1 (by decide)
        · exact hw


theorem full_parameter (n : Nat) (v : Int) : FullC n v (.place .parameter) J.parameter :=
  full_struct [] []
    ["name", "value", "dataType"]
    ["name", "value", "dataType"] (fun _ => rfl) (by simp) rfl
    (by simp) (by decide +kernel) (by decide +kernel) [] rfl (fun has W h hw ha => by
      first
      | trivial
      | (simp only [Place.Needs] at h ⊢
         simp only [List.mem_cons, List.not_mem_nil, or_false, forall_eq_or_imp, forall_eq] at hw ha
         grind)) (
    fullF_field .str rfl (full_plain rfl) (.inl rfl) (fun _ _ => fills_string) <|
    fullF_field .str rfl (full_plain rfl) (.inl rfl) (fun _ _ => fills_string) <|
    fullF_field .str rfl (full_plain rfl) (.inl rfl) (fun _ _ => fills_string) <|
    fullF_nil)

theorem full_taskInput (n : Nat) (v : Int) : FullC n v (.place .inputType) J.taskInput :=
  full_struct [] []
    ["resource", "parameters", "environmentVars", "data", "source", "target", "properties"]
    ["resource", "parameters", "environmentVars", "data", "source", "target", "properties"] (fun _ => rfl) (by simp) rfl
    (by simp) (by decide +kernel) (by decide +kernel) [] rfl (fun has W h hw ha => by
      first
      | trivial
      | (simp only [Place.Needs] at h ⊢
         simp only [List.mem_cons, List.not_mem_nil, or_false, forall_eq_or_imp, forall_eq] at hw ha
         grind)) (
    fullF_field (.place .resourceReferenceChoice) rfl (full_option (full_resourceReferenceChoice n v)) (.inl rfl) (fun _ _ => fills_option) <|
    fullF_field (.list (.place .parameter)) rfl (full_list (full_parameter n v)) (.inl rfl) (fun _ _ => fills_list) <|
    fullF_field (.list (.alt .str (.place .property))) rfl (full_list (full_environmentVariableChoice n v)) (.inl rfl) (fun _ _ => fills_list) <|
    fullF_field (.place .attachment) rfl (full_option (full_attachedText n v)) (.inl rfl) (fun _ _ => fills_option) <|
    fullF_field (.place .resourceReferenceChoice) rfl (full_option (full_resourceReferenceChoice n v)) (.inl rfl) (fun _ _ => fills_option) <|
    fullF_field (.place .resourceReferenceChoice) rfl (full_option (full_resourceReferenceChoice n v)) (.inl rfl) (fun _ _ => fills_option) <|
    fullF_field (.list (.place .property)) rfl (full_list (full_property n v)) (.inl rfl) (fun _ _ => fills_list) <|
    fullF_nil)

theorem full_taskOutput (n : Nat) (v : Int) : FullC n v (.place .outputType) J.taskOutput :=
  full_struct [] []
    ["resource", "parameters", "environmentVars", "data", "type", "source", "target", "properties"]
    ["resource", "parameters", "environmentVars", "data", "type", "source", "target", "properties"] (fun _ => rfl) (by simp) rfl
    (by simp) (by decide +kernel) (by decide +kernel) [] rfl (fun has W h hw ha => by
      first
      | trivial
      | (simp only [Place.Needs] at h ⊢
         simp only [List.mem_cons, List.not_mem_nil, or_false, forall_eq_or_imp, forall_eq] at hw ha
         grind)) (
    fullF_field (.place .resourceReferenceChoice) rfl (full_option (full_resourceReferenceChoice n v)) (.inl rfl) (fun _ _ => fills_option) <|
    fullF_none rfl <|
    fullF_field (.list (.alt .str (.place .property))) rfl (full_list (full_environmentVariableChoice n v)) (.inl rfl) (fun _ _ => fills_list) <|
    fullF_field (.place .attachment) rfl (full_option (full_attachedText n v)) (.inl rfl) (fun _ _ => fills_option) <|
    fullF_field .str rfl (full_plain rfl) (.inl rfl) (fun _ _ => fills_string) <|
    fullF_field (.place .resourceReferenceChoice) rfl (full_option (full_resourceReferenceChoice n v)) (.inl rfl) (fun _ _ => fills_option) <|
    fullF_field (.place .resourceReferenceChoice) rfl (full_option (full_resourceReferenceChoice n v)) (.inl rfl) (fun _ _ => fills_option) <|
    fullF_field (.list (.place .property)) rfl (full_list (full_property n v)) (.inl rfl) (fun _ _ => fills_list) <|
    fullF_nil)

theorem full_taskCommand (n : Nat) (v : Int) : FullC n v (.place .command) J.taskCommand :=
  full_struct [] []
    ["executed", "properties"]
    ["executed", "properties"] (fun _ => rfl) (by simp) rfl
    (by simp) (by decide +kernel) (by decide +kernel) [] rfl (fun has W h hw ha => by
      first
      | trivial
      | (simp only [Place.Needs] at h ⊢
         simp only [List.mem_cons, List.not_mem_nil, or_false, forall_eq_or_imp, forall_eq] at hw ha
         grind)) (
    fullF_field .str rfl (full_plain rfl) (.inl rfl) (fun _ _ => fills_string) <|
    fullF_field (.list (.place .property)) rfl (full_list (full_property n v)) (.inl rfl) (fun _ _ => fills_list) <|
    fullF_nil)

theorem full_taskStep (n : Nat) (v : Int) : FullC n v (.place .step) J.taskStep :=
  full_struct [] []
    ["name", "description", "commands", "properties"]
    ["name", "description", "commands", "properties"] (fun _ => rfl) (by simp) rfl
    (by simp) (by decide +kernel) (by decide +kernel) [] rfl (fun has W h hw ha => by
      first
      | trivial
      | (simp only [Place.Needs] at h ⊢
         simp only [List.mem_cons, List.not_mem_nil, or_false, forall_eq_or_imp, forall_eq] at hw ha
         grind)) (
    fullF_field .str rfl (full_plain rfl) (.inl rfl) (fun _ _ => fills_string) <|
    fullF_field .str rfl (full_plain rfl) (.inl rfl) (fun _ _ => fills_string) <|
    fullF_field (.list (.place .command)) rfl (full_list (full_taskCommand n v)) (.inl rfl) (fun _ _ => fills_list) <|
    fullF_field (.list (.place .property)) rfl (full_list (full_property n v)) (.inl rfl) (fun _ _ => fills_list) <|
    fullF_nil)

theorem full_event (n : Nat) (v : Int) : FullC n v (.place .event) J.event :=
  full_struct [] []
    ["uid", "description", "timeReceived", "data", "source", "target", "properties"]
    ["uid", "description", "timeReceived", "data", "source", "target", "properties"] (fun _ => rfl) (by simp) rfl
    (by simp) (by decide +kernel) (by decide +kernel) [] rfl (fun has W h hw ha => by
      first
      | trivial
      | (simp only [Place.Needs] at h ⊢
         simp only [List.mem_cons, List.not_mem_nil, or_false, forall_eq_or_imp, forall_eq] at hw ha
         grind)) (
    fullF_field .str rfl (full_plain rfl) (.inl rfl) (fun _ _ => fills_string) <|
    fullF_field .str rfl (full_plain rfl) (.inl rfl) (fun _ _ => fills_string) <|
    fullF_field .str rfl (full_plain rfl) (.inl rfl) (fun _ _ => fills_string) <|
    fullF_field (.place .attachment) rfl (full_option (full_attachedText n v)) (.inl rfl) (fun _ _ => fills_option) <|
    fullF_field (.place .resourceReferenceChoice) rfl (full_option (full_resourceReferenceChoice n v)) (.inl rfl) (fun _ _ => fills_option) <|
    fullF_field (.place .resourceReferenceChoice) rfl (full_option (full_resourceReferenceChoice n v)) (.inl rfl) (fun _ _ => fills_option) <|
    fullF_field (.list (.place .property)) rfl (full_list (full_property n v)) (.inl rfl) (fun _ _ => fills_list) <|
    fullF_nil)

theorem full_taskTriggerCondition (n : Nat) (v : Int) : FullC n v (.place .condition) J.taskTriggerCondition :=
  full_struct [] []
    ["description", "expression", "properties"]
    ["description", "expression", "properties"] (fun _ => rfl) (by simp) rfl
    (by simp) (by decide +kernel) (by decide +kernel) [] rfl (fun has W h hw ha => by
      first
      | trivial
      | (simp only [Place.Needs] at h ⊢
         simp only [List.mem_cons, List.not_mem_nil, or_false, forall_eq_or_imp, forall_eq] at hw ha
         grind)) (
    fullF_field .str rfl (full_plain rfl) (.inl rfl) (fun _ _ => fills_string) <|
    fullF_field .str rfl (full_plain rfl) (.inl rfl) (fun _ _ => fills_string) <|
    fullF_field (.list (.place .property)) rfl (full_list (full_property n v)) (.inl rfl) (fun _ _ => fills_list) <|
    fullF_nil)

theorem full_taskTrigger (n : Nat) (v : Int) : FullC n v (.place .trigger) J.taskTrigger :=
  full_struct [] []
    ["bom-ref", "uid", "name", "description", "resourceReferences", "type", "event", "conditions", "timeActivated", "inputs", "outputs", "properties"]
    ["bom-ref", "uid", "name", "description", "resourceReferences", "type", "event", "conditions", "timeActivated", "inputs", "outputs", "properties"] (fun _ => rfl) (by simp) rfl
    (by simp) (by decide +kernel) (by decide +kernel) [] rfl (fun has W h hw ha => by
      first
      | trivial
      | (simp only [Place.Needs] at h ⊢
         simp only [List.mem_cons, List.not_mem_nil, or_false, forall_eq_or_imp, forall_eq] at hw ha
         grind)) (
    fullF_field .str rfl (full_plain rfl) (.inl rfl) (fun _ _ => fills_string) <|
    fullF_field .str rfl (full_plain rfl) (.inl rfl) (fun _ _ => fills_string) <|
    fullF_field .str rfl (full_plain rfl) (.inl rfl) (fun _ _ => fills_string) <|
    fullF_field .str rfl (full_plain rfl) (.inl rfl) (fun _ _ => fills_string) <|
    fullF_field (.list (.place .resourceReferenceChoice)) rfl (full_list (full_resourceReferenceChoice n v)) (.inl rfl) (fun _ _ => fills_list) <|
    fullF_field .str rfl (full_plain rfl) (.inl rfl) (fun _ _ => fills_string) <|
    fullF_field (.place .event) rfl (full_option (full_event n v)) (.inl rfl) (fun _ _ => fills_option) <|
    fullF_field (.list (.place .condition)) rfl (full_list (full_taskTriggerCondition n v)) (.inl rfl) (fun _ _ => fills_list) <|
    fullF_field .str rfl (full_plain rfl) (.inl rfl) (fun _ _ => fills_string) <|
    fullF_field (.list (.place .inputType)) rfl (full_list (full_taskInput n v)) (.inl rfl) (fun _ _ => fills_list) <|
    fullF_field (.list (.place .outputType)) rfl (full_list (full_taskOutput n v)) (.inl rfl) (fun _ _ => fills_list) <|
    fullF_field (.list (.place .property)) rfl (full_list (full_property n v)) (.inl rfl) (fun _ _ => fills_list) <|
    fullF_nil)

theorem full_volume (n : Nat) (v : Int) : FullC n v (.place .volume) J.volume :=
  full_struct [] []
    ["uid", "name", "mode", "path", "sizeAllocated", "persistent", "remote", "properties"]
    ["uid", "name", "mode", "path", "sizeAllocated", "persistent", "remote", "properties"] (fun _ => rfl) (by simp) rfl
    (by simp) (by decide +kernel) (by decide +kernel) [] rfl (fun has W h hw ha => by
      first
      | trivial
      | (simp only [Place.Needs] at h ⊢
         simp only [List.mem_cons, List.not_mem_nil, or_false, forall_eq_or_imp, forall_eq] at hw ha
         grind)) (
    fullF_field .str rfl (full_plain rfl) (.inl rfl) (fun _ _ => fills_string) <|
    fullF_field .str rfl (full_plain rfl) (.inl rfl) (fun _ _ => fills_string) <|
    fullF_field .str rfl (full_plain rfl) (.inl rfl) (fun _ _ => fills_string) <|
    fullF_field .str rfl (full_plain rfl) (.inl rfl) (fun _ _ => fills_string) <|
    fullF_field .str rfl (full_plain rfl) (.inl rfl) (fun _ _ => fills_string) <|
    fullF_field .bool rfl (full_plain rfl) (.inl rfl) (fun _ _ => fills_option) <|
    fullF_field .bool rfl (full_plain rfl) (.inl rfl) (fun _ _ => fills_option) <|
    fullF_field (.list (.place .property)) rfl (full_list (full_property n v)) (.inl rfl) (fun _ _ => fills_list) <|
    fullF_nil)

theorem full_taskWorkspace (n : Nat) (v : Int) : FullC n v (.place .workspace) J.taskWorkspace :=
  full_struct [] []
    ["bom-ref", "uid", "name", "aliases", "description", "resourceReferences", "accessMode", "mountPath", "managedDataType", "volumeRequest", "volume", "properties"]
    ["bom-ref", "uid", "name", "aliases", "description", "resourceReferences", "accessMode", "mountPath", "managedDataType", "volumeRequest", "volume", "properties"] (fun _ => rfl) (by simp) rfl
    (by simp) (by decide +kernel) (by decide +kernel) [] rfl (fun has W h hw ha => by
      first
      | trivial
      | (simp only [Place.Needs] at h ⊢
         simp only [List.mem_cons, List.not_mem_nil, or_false, forall_eq_or_imp, forall_eq] at hw ha
         grind)) (
    fullF_field .str rfl (full_plain rfl) (.inl rfl) (fun _ _ => fills_string) <|
    fullF_field .str rfl (full_plain rfl) (.inl rfl) (fun _ _ => fills_string) <|
    fullF_field .str rfl (full_plain rfl) (.inl rfl) (fun _ _ => fills_string) <|
    fullF_field (.list .str) rfl (full_plain rfl) (.inl rfl) (fun _ _ => fills_list) <|
    fullF_field .str rfl (full_plain rfl) (.inl rfl) (fun _ _ => fills_string) <|
    fullF_field (.list (.place .resourceReferenceChoice)) rfl (full_list (full_resourceReferenceChoice n v)) (.inl rfl) (fun _ _ => fills_list) <|
    fullF_field .str rfl (full_plain rfl) (.inl rfl) (fun _ _ => fills_string) <|
    fullF_field .str rfl (full_plain rfl) (.inl rfl) (fun _ _ => fills_string) <|
    fullF_field .str rfl (full_plain rfl) (.inl rfl) (fun _ _ => fills_string) <|
    fullF_field .str rfl (full_plain rfl) (.inl rfl) (fun _ _ => fills_string) <|
    fullF_field (.place .volume) rfl (full_option (full_volume n v)) (.inl rfl) (fun _ _ => fills_option) <|
    fullF_field (.list (.place .property)) rfl (full_list (full_property n v)) (.inl rfl) (fun _ _ => fills_list) <|
    fullF_nil)

theorem full_task (n : Nat) (v : Int) : FullC n v (.place .task) J.task :=
  full_struct [] []
    ["bom-ref", "uid", "name", "description", "properties", "resourceReferences", "taskTypes", "trigger", "steps", "inputs", "outputs", "timeStart", "timeEnd", "workspaces", "runtimeTopology"]
    ["bom-ref", "uid", "name", "description", "properties", "resourceReferences", "taskTypes", "trigger", "steps", "inputs", "outputs", "timeStart", "timeEnd", "workspaces", "runtimeTopology"] (fun _ => rfl) (by simp) rfl
    (by simp) (by decide +kernel) (by decide +kernel) [] rfl (fun has W h hw ha => by
      first
      | trivial
      | (simp only [Place.Needs] at h ⊢
         simp only [List.mem_cons, List.not_mem_nil, or_false, forall_eq_or_imp, forall_eq] at hw ha
         grind)) (
    fullF_field .str rfl (full_plain rfl) (.inl rfl) (fun _ _ => fills_string) <|
    fullF_field .str rfl (full_plain rfl) (.inl rfl) (fun _ _ => fills_string) <|
    fullF_field .str rfl (full_plain rfl) (.inl rfl) (fun _ _ => fills_string) <|
    fullF_field .str rfl (full_plain rfl) (.inl rfl) (fun _ _ => fills_string) <|
    fullF_field (.list (.place .property)) rfl (full_list (full_property n v)) (.inl rfl) (fun _ _ => fills_list) <|
    fullF_field (.list (.place .resourceReferenceChoice)) rfl (full_list (full_resourceReferenceChoice n v)) (.inl rfl) (fun _ _ => fills_list) <|
    fullF_field (.list .str) rfl (full_plain rfl) (.inl rfl) (fun _ _ => fills_list) <|
    fullF_field (.place .trigger) rfl (full_option (full_taskTrigger n v)) (.inl rfl) (fun _ _ => fills_option) <|
    fullF_field (.list (.place .step)) rfl (full_list (full_taskStep n v)) (.inl rfl) (fun _ _ => fills_list) <|
    fullF_field (.list (.place .inputType)) rfl (full_list (full_taskInput n v)) (.inl rfl) (fun _ _ => fills_list) <|
    fullF_field (.list (.place .outputType)) rfl (full_list (full_taskOutput n v)) (.inl rfl) (fun _ _ => fills_list) <|
    fullF_field .str rfl (full_plain rfl) (.inl rfl) (fun _ _ => fills_string) <|
    fullF_field .str rfl (full_plain rfl) (.inl rfl) (fun _ _ => fills_string) <|
    fullF_field (.list (.place .workspace)) rfl (full_list (full_taskWorkspace n v)) (.inl rfl) (fun _ _ => fills_list) <|
    fullF_field (.list (.place .dependency)) rfl (full_list (full_dependency n v)) (.inl rfl) (fun _ _ => fills_list) <|
    fullF_nil)

theorem full_workflow (n : Nat) (v : Int) : FullC n v (.place .workflow) J.workflow :=
  full_struct [] []
    ["bom-ref", "uid", "name", "description", "resourceReferences", "tasks", "taskDependencies", "taskTypes", "trigger", "steps", "inputs", "outputs", "timeStart", "timeEnd", "workspaces", "runtimeTopology", "properties"]
    ["bom-ref", "uid", "name", "description", "resourceReferences", "tasks", "taskDependencies", "taskTypes", "trigger", "steps", "inputs", "outputs", "timeStart", "timeEnd", "workspaces", "runtimeTopology", "properties"] (fun _ => rfl) (by simp) rfl
    (by simp) (by decide +kernel) (by decide +kernel) [] rfl (fun has W h hw ha => by
      first
      | trivial
      | (simp only [Place.Needs] at h ⊢
         simp only [List.mem_cons, List.not_mem_nil, or_false, forall_eq_or_imp, forall_eq] at hw ha
         grind)) (
    fullF_field .str rfl (full_plain rfl) (.inl rfl) (fun _ _ => fills_string) <|
    fullF_field .str rfl (full_plain rfl) (.inl rfl) (fun _ _ => fills_string) <|
    fullF_field .str rfl (full_plain rfl) (.inl rfl) (fun _ _ => fills_string) <|
    fullF_field .str rfl (full_plain rfl) (.inl rfl) (fun _ _ => fills_string) <|
    fullF_field (.list (.place .resourceReferenceChoice)) rfl (full_list (full_resourceReferenceChoice n v)) (.inl rfl) (fun _ _ => fills_list) <|
    fullF_field (.list (.place .task)) rfl (full_list (full_task n v)) (.inl rfl) (fun _ _ => fills_list) <|
    fullF_field (.list (.place .dependency)) rfl (full_list (full_dependency n v)) (.inl rfl) (fun _ _ => fills_list) <|
    fullF_field (.list .str) rfl (full_plain rfl) (.inl rfl) (fun _ _ => fills_list) <|
    fullF_field (.place .trigger) rfl (full_option (full_taskTrigger n v)) (.inl rfl) (fun _ _ => fills_option) <|
    fullF_field (.list (.place .step)) rfl (full_list (full_taskStep n v)) (.inl rfl) (fun _ _ => fills_list) <|
    fullF_field (.list (.place .inputType)) rfl (full_list (full_taskInput n v)) (.inl rfl) (fun _ _ => fills_list) <|
    fullF_field (.list (.place .outputType)) rfl (full_list (full_taskOutput n v)) (.inl rfl) (fun _ _ => fills_list) <|
    fullF_field .str rfl (full_plain rfl) (.inl rfl) (fun _ _ => fills_string) <|
    fullF_field .str rfl (full_plain rfl) (.inl rfl) (fun _ _ => fills_string) <|
    fullF_field (.list (.place .workspace)) rfl (full_list (full_taskWorkspace n v)) (.inl rfl) (fun _ _ => fills_list) <|
    fullF_field (.list (.place .dependency)) rfl (full_list (full_dependency n v)) (.inl rfl) (fun _ _ => fills_list) <|
    fullF_field (.list (.place .property)) rfl (full_list (full_property n v)) (.inl rfl) (fun _ _ => fills_list) <|
    fullF_nil)

theorem full_formula (n : Nat) (v : Int) : FullC n v (.place .formula) J.formula :=
  full_struct [] []
    ["bom-ref", "components", "services", "workflows", "properties"]
    ["bom-ref", "components", "services", "workflows", "properties"] (fun _ => rfl) (by simp) rfl
    (by simp) (by decide +kernel) (by decide +kernel) [] rfl (fun has W h hw ha => by
      first
      | trivial
      | (simp only [Place.Needs] at h ⊢
         simp only [List.mem_cons, List.not_mem_nil, or_false, forall_eq_or_imp, forall_eq] at hw ha
         grind)) (
    fullF_field .str rfl (full_plain rfl) (.inl rfl) (fun _ _ => fills_string) <|
    fullF_field (.list (.place .component)) rfl (full_list (full_component n v)) (.inl rfl) (fun _ _ => fills_list) <|
    fullF_field (.list (.place .service)) rfl (full_list (full_service n v)) (.inl rfl) (fun _ _ => fills_list) <|
    fullF_field (.list (.place .workflow)) rfl (full_list (full_workflow n v)) (.inl rfl) (fun _ _ => fills_list) <|
    fullF_field (.list (.place .property)) rfl (full_list (full_property n v)) (.inl rfl) (fun _ _ => fills_list) <|
    fullF_nil)

theorem full_lifecycle (n : Nat) (v : Int) : FullC n v (.place .metadataLifecycles) J.lifecycle :=
  full_struct [] []
    ["name", "phase", "description"]
    ["name", "phase", "description"] (fun _ => rfl) (by simp) rfl
    (by simp) (by decide +kernel) (by decide +kernel) [] rfl (fun has W h hw ha => by
      first
      | trivial
      | (simp only [Place.Needs] at h ⊢
         simp only [List.mem_cons, List.not_mem_nil, or_false, forall_eq_or_imp, forall_eq] at hw ha
         grind)) (
    fullF_field .str rfl (full_plain rfl) (.inl rfl) (fun _ _ => fills_string) <|
    fullF_field .str rfl (full_plain rfl) (.inl rfl) (fun _ _ => fills_string) <|
    fullF_field .str rfl (full_plain rfl) (.inl rfl) (fun _ _ => fills_string) <|
    fullF_nil)

theorem full_tool (n : Nat) (v : Int) : FullC n v (.place .tool) J.tool :=
  full_struct [] []
    ["vendor", "name", "version", "hashes", "externalReferences"]
    ["vendor", "name", "version", "hashes", "externalReferences"] (fun _ => rfl) (by simp) rfl
    (by simp) (by decide +kernel) (by decide +kernel) ["name"] rfl (fun has W h hw ha => by
      first
      | trivial
      | (simp only [Place.Needs] at h ⊢
         simp only [List.mem_cons, List.not_mem_nil, or_false, forall_eq_or_imp, forall_eq] at hw ha
         grind)) (
    fullF_field .str rfl (full_plain rfl) (.inl rfl) (fun _ _ => fills_string) <|
    fullF_field .str rfl (full_plain rfl) (.inr (outR_plain rfl)) (fun _ => nofun) <|
    fullF_field .str rfl (full_plain rfl) (.inl rfl) (fun _ _ => fills_string) <|
    fullF_field (.list (.place .hash)) rfl (full_list (full_hash n v)) (.inl rfl) (fun _ _ => fills_list) <|
    fullF_field (.since SpecVersion1_4 (.list (.place .externalReference))) rfl (full_since (full_list (full_externalReference n v))) (.inl rfl) (fun _ _ => fills_since (fills_list)) <|
    fullF_nil)

theorem full_toolsChoiceJSON (n : Nat) (v : Int) : FullC n v (.place .tools) J.toolsChoiceJSON :=
  full_struct [] [] ["components", "services"] ["components", "services"] (fun _ => rfl) (by simp) rfl (by simp)
    (by decide +kernel) (by decide +kernel) [] rfl (fun _ _ _ _ _ => trivial) (
    fullF_field (.list (.place .component)) rfl (full_list (full_component n v)) (.inl rfl) (fun _ _ => fills_list) <|
    fullF_field (.list (.place .service)) rfl (full_list (full_service n v)) (.inl rfl) (fun _ _ => fills_list) fullF_nil)

theorem full_toolsChoice (n : Nat) (v : Int) : FullC n v (.alt (.list (.place .tool)) (.since SpecVersion1_5 (.place .tools))) J.toolsChoice := by
  obtain ⟨I, hz, h⟩ := full_toolsChoiceJSON n v
  obtain ⟨L, lz, hl⟩ := full_list (full_tool n v)
  have lft : ∀ (ts : PSlice Tool) i, HasRequired v (.list (.place .tool)) i → (JCodec.pslice J.tool).enc ts = some i →
      HasRequired v (.alt (.list (.place .tool)) (.since SpecVersion1_5 (.place .tools))) i := by
    intro ts i hr hj
    refine .alt hr (.since ?_)
    cases ts with
    | list xs =>
      simp only [JCodec.pslice, Option.map_eq_some_iff] at hj
      obtain ⟨js, _, rfl⟩ := hj; exact required_place_arr
    | _ =>
      simp only [JCodec.pslice, Option.some.injEq] at hj
      subst hj; exact required_null _
  refine ⟨OutR v (.alt (.list (.place .tool)) (.since SpecVersion1_5 (.place .tools))) J.toolsChoice, ?_, ?_⟩
  · intro j hj
    simp [J.toolsChoice, PSlice.isNil] at hj
  intro j old x hj hs hi hd
  suffices h : OutR v (.alt (.list (.place .tool)) (.since SpecVersion1_5 (.place .tools))) J.toolsChoice x from ⟨h, h⟩
  rcases hs.alt with hs | hs
  · obtain ⟨js, rfl⟩ := conforms_list_arr hs.declared
    simp only [J.toolsChoice] at hd
    cases he : (JCodec.pslice J.tool).dec (.arr js) .nil with
    | none => rw [he] at hd; cases hd
    | some ts =>
      simp only [he, Option.some.injEq] at hd
      subst hd
      intro i hj'
      have := (hl _ _ _ hj hs lz he).2
      cases ts with
      | nil => simp [J.toolsChoice, PSlice.isNil] at hj'
      | nilSlice => exact lft _ i (this i (by simpa [J.toolsChoice, PSlice.isNil] using hj')) (by simpa [J.toolsChoice, PSlice.isNil] using hj')
      | list ts => exact lft _ i (this i (by simpa [J.toolsChoice, PSlice.isNil] using hj')) (by simpa [J.toolsChoice, PSlice.isNil] using hj')
  · have hs := hs.since
    obtain ⟨ms, rfl⟩ := conforms_place_obj hs.declared
    simp only [J.toolsChoice] at hd
    cases he : J.toolsChoiceJSON.dec (.obj ms) (.nil, .nil) with
    | none => rw [he] at hd; cases hd
    | some q =>
      simp only [he] at hd
      split at hd
      · rename_i hq
        simp only [Option.some.injEq] at hd
        subst hd
        intro i hj'
        have := (h _ _ _ hj hs hz he).2
        simp only [J.toolsChoice, PSlice.isNil, not_true_eq_false, false_and, if_false, Bool.not_eq_true] at hj' hq
        rw [if_pos hq] at hj'
        have := this i hj'
        obtain ⟨ms, rfl⟩ := struct_is_obj hj'
        exact .alt required_list_obj (.since this)
      · simp only [Option.some.injEq] at hd; subst hd; exact hi

theorem full_distributionConstraints (n : Nat) (v : Int) : FullC n v (.place .metadataDistributionConstraints) J.distributionConstraints :=
  full_struct [] []
    ["tlp"]
    ["tlp"] (fun _ => rfl) (by simp) rfl
    (by simp) (by decide +kernel) (by decide +kernel) [] rfl (fun has W h hw ha => by
      first
      | trivial
      | (simp only [Place.Needs] at h ⊢
         simp only [List.mem_cons, List.not_mem_nil, or_false, forall_eq_or_imp, forall_eq] at hw ha
         grind)) (
    fullF_field .str rfl (full_plain rfl) (.inl rfl) (fun _ _ => fills_string) <|
    fullF_nil)

theorem full_metadata (n : Nat) (v : Int) : FullC n v (.place .metadata) J.metadata :=
  full_struct [] []
    ["timestamp", "lifecycles", "tools", "authors", "component", "manufacture", "manufacturer", "supplier", "licenses", "properties", "distributionConstraints"]
    ["timestamp", "lifecycles", "tools", "authors", "component", "manufacture", "manufacturer", "supplier", "licenses", "properties", "distributionConstraints"] (fun _ => rfl) (by simp) rfl
    (by simp) (by decide +kernel) (by decide +kernel) [] rfl (fun has W h hw ha => by
      first
      | trivial
      | (simp only [Place.Needs] at h ⊢
         simp only [List.mem_cons, List.not_mem_nil, or_false, forall_eq_or_imp, forall_eq] at hw ha
         grind)) (
    fullF_field .str rfl (full_plain rfl) (.inl rfl) (fun _ _ => fills_string) <|
    fullF_field (.since SpecVersion1_5 (.list (.place .metadataLifecycles))) rfl (full_since (full_list (full_lifecycle n v))) (.inl rfl) (fun _ _ => fills_since (fills_list)) <|
    fullF_field (.alt (.list (.place .tool)) (.since SpecVersion1_5 (.place .tools))) rfl (full_option (full_toolsChoice n v)) (.inl rfl) (fun _ _ => fills_option) <|
    fullF_field (.list (.place .organizationalContact)) rfl (full_list (full_organizationalContact n v)) (.inl rfl) (fun _ _ => fills_list) <|
    fullF_field (.place .component) rfl (full_option (full_component n v)) (.inl rfl) (fun _ _ => fills_option) <|
    fullF_field (.place .organizationalEntity) rfl (full_option (full_organizationalEntity n v)) (.inl rfl) (fun _ _ => fills_option) <|
    fullF_field (.since SpecVersion1_6 (.place .organizationalEntity)) rfl (full_since (full_option (full_organizationalEntity n v))) (.inl rfl) (fun _ _ => fills_since (fills_option)) <|
    fullF_field (.place .organizationalEntity) rfl (full_option (full_organizationalEntity n v)) (.inl rfl) (fun _ _ => fills_option) <|
    fullF_field (.since SpecVersion1_3 (.list (.place .licenseChoice))) rfl (full_since (full_list (full_licenseChoice n v))) (.inl rfl) (fun _ _ => fills_since (fills_list)) <|
    fullF_field (.since SpecVersion1_3 (.list (.place .property))) rfl (full_since (full_list (full_property n v))) (.inl rfl) (fun _ _ => fills_since (fills_list)) <|
    fullF_field (.since SpecVersion1_7 (.place .metadataDistributionConstraints)) rfl (full_since (full_option (full_distributionConstraints n v))) (.inl rfl) (fun _ _ => fills_since (fills_option)) <|
    fullF_nil)

theorem full_credits (n : Nat) (v : Int) : FullC n v (.place .vulnerabilityCredits) J.credits :=
  full_struct [] []
    ["organizations", "individuals"]
    ["organizations", "individuals"] (fun _ => rfl) (by simp) rfl
    (by simp) (by decide +kernel) (by decide +kernel) [] rfl (fun has W h hw ha => by
      first
      | trivial
      | (simp only [Place.Needs] at h ⊢
         simp only [List.mem_cons, List.not_mem_nil, or_false, forall_eq_or_imp, forall_eq] at hw ha
         grind)) (
    fullF_field (.list (.place .organizationalEntity)) rfl (full_list (full_organizationalEntity n v)) (.inl rfl) (fun _ _ => fills_list) <|
    fullF_field (.list (.place .organizationalContact)) rfl (full_list (full_organizationalContact n v)) (.inl rfl) (fun _ _ => fills_list) <|
    fullF_nil)

theorem full_proofOfConcept (n : Nat) (v : Int) : FullC n v (.place .vulnerabilityProofOfConcept) J.proofOfConcept :=
  full_struct [] []
    ["reproductionSteps", "environment", "supportingMaterial"]
    ["reproductionSteps", "environment", "supportingMaterial"] (fun _ => rfl) (by simp) rfl
    (by simp) (by decide +kernel) (by decide +kernel) [] rfl (fun has W h hw ha => by
      first
      | trivial
      | (simp only [Place.Needs] at h ⊢
         simp only [List.mem_cons, List.not_mem_nil, or_false, forall_eq_or_imp, forall_eq] at hw ha
         grind)) (
    fullF_field .str rfl (full_plain rfl) (.inl rfl) (fun _ _ => fills_string) <|
    fullF_field .str rfl (full_plain rfl) (.inl rfl) (fun _ _ => fills_string) <|
    fullF_field (.list (.place .attachment)) rfl (full_list (full_attachedText n v)) (.inl rfl) (fun _ _ => fills_list) <|
    fullF_nil)

theorem full_vulnerabilityAnalysis (n : Nat) (v : Int) : FullC n v (.place .vulnerabilityAnalysis) J.vulnerabilityAnalysis :=
  full_struct [] []
    ["state", "justification", "response", "detail", "firstIssued", "lastUpdated"]
    ["state", "justification", "response", "detail", "firstIssued", "lastUpdated"] (fun _ => rfl) (by simp) rfl
    (by simp) (by decide +kernel) (by decide +kernel) [] rfl (fun has W h hw ha => by
      first
      | trivial
      | (simp only [Place.Needs] at h ⊢
         simp only [List.mem_cons, List.not_mem_nil, or_false, forall_eq_or_imp, forall_eq] at hw ha
         grind)) (
    fullF_field .str rfl (full_plain rfl) (.inl rfl) (fun _ _ => fills_string) <|
    fullF_field .str rfl (full_plain rfl) (.inl rfl) (fun _ _ => fills_string) <|
    fullF_field (.list .str) rfl (full_plain rfl) (.inl rfl) (fun _ _ => fills_list) <|
    fullF_field .str rfl (full_plain rfl) (.inl rfl) (fun _ _ => fills_string) <|
    fullF_field (.since SpecVersion1_5 .str) rfl (full_plain rfl) (.inl rfl) (fun _ _ => fills_since (fills_string)) <|
    fullF_field (.since SpecVersion1_5 .str) rfl (full_plain rfl) (.inl rfl) (fun _ _ => fills_since (fills_string)) <|
    fullF_nil)

theorem full_vulnerabilityRating (n : Nat) (v : Int) : FullC n v (.place .rating) J.vulnerabilityRating :=
  full_struct [] []
    ["source", "score", "severity", "method", "vector", "justification"]
    ["source", "score", "severity", "method", "vector", "justification"] (fun _ => rfl) (by simp) rfl
    (by simp) (by decide +kernel) (by decide +kernel) [] rfl (fun has W h hw ha => by
      first
      | trivial
      | (simp only [Place.Needs] at h ⊢
         simp only [List.mem_cons, List.not_mem_nil, or_false, forall_eq_or_imp, forall_eq] at hw ha
         grind)) (
    fullF_field (.place .vulnerabilitySource) rfl (full_option (full_source n v)) (.inl rfl) (fun _ _ => fills_option) <|
    fullF_field .num rfl (full_plain rfl) (.inl rfl) (fun _ _ => fills_option) <|
    fullF_field .str rfl (full_plain rfl) (.inl rfl) (fun _ _ => fills_string) <|
    fullF_field .str rfl (full_plain rfl) (.inl rfl) (fun _ _ => fills_string) <|
    fullF_field .str rfl (full_plain rfl) (.inl rfl) (fun _ _ => fills_string) <|
    fullF_field .str rfl (full_plain rfl) (.inl rfl) (fun _ _ => fills_string) <|
    fullF_nil)

theorem full_vulnerabilityReference (n : Nat) (v : Int) : FullC n v (.place .vulnerabilityReferences) J.vulnerabilityReference :=
  full_struct [] []
    ["id", "source"]
    ["id", "source"] (fun _ => rfl) (by simp) rfl
    (by simp) (by decide +kernel) (by decide +kernel) [] rfl (fun has W h hw ha => by
      first
      | trivial
      | (simp only [Place.Needs] at h ⊢
         simp only [List.mem_cons, List.not_mem_nil, or_false, forall_eq_or_imp, forall_eq] at hw ha
         grind)) (
    fullF_field .str rfl (full_plain rfl) (.inl rfl) (fun _ _ => fills_string) <|
    fullF_field (.place .vulnerabilitySource) rfl (full_option (full_source n v)) (.inl rfl) (fun _ _ => fills_option) <|
    fullF_nil)

theorem full_vulnerability (n : Nat) (v : Int) : FullC n v (.place .vulnerability) J.vulnerability :=
  full_struct [] []
    ["bom-ref", "id", "source", "references", "ratings", "cwes", "description", "detail", "recommendation", "workaround", "proofOfConcept", "advisories", "created", "published", "updated", "rejected", "credits", "tools", "analysis", "affects", "properties"]
    ["bom-ref", "id", "source", "references", "ratings", "cwes", "description", "detail", "recommendation", "workaround", "proofOfConcept", "advisories", "created", "published", "updated", "rejected", "credits", "tools", "analysis", "affects", "properties"] (fun _ => rfl) (by simp) rfl
    (by simp) (by decide +kernel) (by decide +kernel) ["id"] rfl (fun has W h hw ha => by
      first
      | trivial
      | (simp only [Place.Needs] at h ⊢
         simp only [List.mem_cons, List.not_mem_nil, or_false, forall_eq_or_imp, forall_eq] at hw ha
         grind)) (
    fullF_field .str rfl (full_plain rfl) (.inl rfl) (fun _ _ => fills_string) <|
    fullF_field .str rfl (full_plain rfl) (.inr (outR_plain rfl)) (fun _ => nofun) <|
    fullF_field (.place .vulnerabilitySource) rfl (full_option (full_source n v)) (.inl rfl) (fun _ _ => fills_option) <|
    fullF_field (.list (.place .vulnerabilityReferences)) rfl (full_list (full_vulnerabilityReference n v)) (.inl rfl) (fun _ _ => fills_list) <|
    fullF_field (.list (.place .rating)) rfl (full_list (full_vulnerabilityRating n v)) (.inl rfl) (fun _ _ => fills_list) <|
    fullF_field (.list .int) rfl (full_plain rfl) (.inl rfl) (fun _ _ => fills_list) <|
    fullF_field .str rfl (full_plain rfl) (.inl rfl) (fun _ _ => fills_string) <|
    fullF_field .str rfl (full_plain rfl) (.inl rfl) (fun _ _ => fills_string) <|
    fullF_field .str rfl (full_plain rfl) (.inl rfl) (fun _ _ => fills_string) <|
    fullF_field (.since SpecVersion1_5 .str) rfl (full_plain rfl) (.inl rfl) (fun _ _ => fills_since (fills_string)) <|
    fullF_field (.since SpecVersion1_5 (.place .vulnerabilityProofOfConcept)) rfl (full_since (full_option (full_proofOfConcept n v))) (.inl rfl) (fun _ _ => fills_since (fills_option)) <|
    fullF_field (.list (.place .advisory)) rfl (full_list (full_advisory n v)) (.inl rfl) (fun _ _ => fills_list) <|
    fullF_field .str rfl (full_plain rfl) (.inl rfl) (fun _ _ => fills_string) <|
    fullF_field .str rfl (full_plain rfl) (.inl rfl) (fun _ _ => fills_string) <|
    fullF_field .str rfl (full_plain rfl) (.inl rfl) (fun _ _ => fills_string) <|
    fullF_field (.since SpecVersion1_5 .str) rfl (full_plain rfl) (.inl rfl) (fun _ _ => fills_since (fills_string)) <|
    fullF_field (.place .vulnerabilityCredits) rfl (full_option (full_credits n v)) (.inl rfl) (fun _ _ => fills_option) <|
    fullF_field (.alt (.list (.place .tool)) (.since SpecVersion1_5 (.place .tools))) rfl (full_option (full_toolsChoice n v)) (.inl rfl) (fun _ _ => fills_option) <|
    fullF_field (.place .vulnerabilityAnalysis) rfl (full_option (full_vulnerabilityAnalysis n v)) (.inl rfl) (fun _ _ => fills_option) <|
    fullF_field (.list (.place .vulnerabilityAffects)) rfl (full_list (full_affects n v)) (.inl rfl) (fun _ _ => fills_list) <|
    fullF_field (.list (.place .property)) rfl (full_list (full_property n v)) (.inl rfl) (fun _ _ => fills_list) <|
    fullF_nil)

theorem full_citation (n : Nat) (v : Int) : FullC n v (.place .citation) J.citation :=
  full_struct [] []
    ["bom-ref", "pointers", "expressions", "timestamp", "attributedTo", "process", "note", "signature"]
    ["bom-ref", "pointers", "expressions", "timestamp", "attributedTo", "process", "note", "signature"] (fun _ => rfl) (by simp) rfl
    (by simp) (by decide +kernel) (by decide +kernel) [] rfl (fun has W h hw ha => by
      first
      | trivial
      | (simp only [Place.Needs] at h ⊢
         simp only [List.mem_cons, List.not_mem_nil, or_false, forall_eq_or_imp, forall_eq] at hw ha
         grind)) (
    fullF_field .str rfl (full_plain rfl) (.inl rfl) (fun _ _ => fills_string) <|
    fullF_field (.list .str) rfl (full_plain rfl) (.inl rfl) (fun _ _ => fills_list) <|
    fullF_field (.list .str) rfl (full_plain rfl) (.inl rfl) (fun _ _ => fills_list) <|
    fullF_field .str rfl (full_plain rfl) (.inl rfl) (fun _ _ => fills_string) <|
    fullF_field .str rfl (full_plain rfl) (.inl rfl) (fun _ _ => fills_option) <|
    fullF_field .str rfl (full_plain rfl) (.inl rfl) (fun _ _ => fills_string) <|
    fullF_field .str rfl (full_plain rfl) (.inl rfl) (fun _ _ => fills_string) <|
    fullF_field (.place .signature) rfl (full_option (full_jsfSignature n v)) (.inl rfl) (fun _ _ => fills_option) <|
    fullF_nil)

theorem full_bom (n : Nat) (v : Int) : FullC n v (.place .bom) J.bom :=
  full_struct [] []
    ["$schema", "bomFormat", "specVersion", "serialNumber", "version", "metadata", "components", "services", "externalReferences", "dependencies", "compositions", "properties", "vulnerabilities", "annotations", "formulation", "declarations", "definitions", "citations", "signature"]
    ["$schema", "bomFormat", "specVersion", "serialNumber", "version", "metadata", "components", "services", "externalReferences", "dependencies", "compositions", "properties", "vulnerabilities", "annotations", "formulation", "declarations", "definitions", "citations", "signature"] (fun _ => rfl) (by simp) rfl
    (by simp) (by decide +kernel) (by decide +kernel) ["bomFormat", "specVersion", "version"] rfl (fun has W h hw ha => by
      first
      | trivial
      | (simp only [Place.Needs] at h ⊢
         simp only [List.mem_cons, List.not_mem_nil, or_false, forall_eq_or_imp, forall_eq] at hw ha
         grind)) (
    fullF_skip <|
    fullF_skip <|
    fullF_field .str rfl (full_plain rfl) (.inl rfl) (fun _ _ => fills_string) <|
    fullF_field .str rfl (full_plain rfl) (.inr (outR_plain rfl)) (fun _ => nofun) <|
    fullF_field .str rfl (full_plain rfl) (.inr (outR_plain rfl)) (fun _ => nofun) <|
    fullF_field .str rfl (full_plain rfl) (.inl rfl) (fun _ _ => fills_string) <|
    fullF_field .int rfl (full_plain rfl) (.inr (outR_plain rfl)) (fun _ => nofun) <|
    fullF_field (.place .metadata) rfl (full_option (full_metadata n v)) (.inl rfl) (fun _ _ => fills_option) <|
    fullF_field (.list (.place .component)) rfl (full_list (full_component n v)) (.inl rfl) (fun _ _ => fills_list) <|
    fullF_field (.list (.place .service)) rfl (full_list (full_service n v)) (.inl rfl) (fun _ _ => fills_list) <|
    fullF_field (.list (.place .externalReference)) rfl (full_list (full_externalReference n v)) (.inl rfl) (fun _ _ => fills_list) <|
    fullF_field (.list (.place .dependency)) rfl (full_list (full_dependency n v)) (.inl rfl) (fun _ _ => fills_list) <|
    fullF_field (.since SpecVersion1_3 (.list (.place .compositions))) rfl (full_since (full_list (full_composition n v))) (.inl rfl) (fun _ _ => fills_since (fills_list)) <|
    fullF_field (.since SpecVersion1_5 (.list (.place .property))) rfl (full_since (full_list (full_property n v))) (.inl rfl) (fun _ _ => fills_since (fills_list)) <|
    fullF_field (.since SpecVersion1_4 (.list (.place .vulnerability))) rfl (full_since (full_list (full_vulnerability n v))) (.inl rfl) (fun _ _ => fills_since (fills_list)) <|
    fullF_field (.since SpecVersion1_5 (.list (.place .annotations))) rfl (full_since (full_list (full_annotation n v))) (.inl rfl) (fun _ _ => fills_since (fills_list)) <|
    fullF_field (.since SpecVersion1_5 (.list (.place .formula))) rfl (full_since (full_list (full_formula n v))) (.inl rfl) (fun _ _ => fills_since (fills_list)) <|
    fullF_field (.since SpecVersion1_6 (.place .bomDeclarations)) rfl (full_since (full_option (full_declarations n v))) (.inl rfl) (fun _ _ => fills_since (fills_option)) <|
    fullF_field (.since SpecVersion1_6 (.place .bomDefinitions)) rfl (full_since (full_option (full_definitions n v))) (.inl rfl) (fun _ _ => fills_since (fills_option)) <|
    fullF_field (.since SpecVersion1_7 (.list (.place .citation))) rfl (full_since (full_list (full_citation n v))) (.inl rfl) (fun _ _ => fills_since (fills_list)) <|
    fullF_field (.since SpecVersion1_4 (.place .signature)) rfl (full_since (full_option (full_jsfSignature n v))) (.inl rfl) (fun _ _ => fills_since (fills_option)) <|
    fullF_nil)

end Verif
