import Verif.Spec.JsonScant
import Verif.Json.KeepLaws

/-!
# What is read from a document that has all that is required is written with all that is required

GENERATED by `tools/gen_recomplete.py`; do not edit by hand.  `FullC n v s c`: from a document less than `n` deep that
is `Ample` for `s` at version `v` the codec `c` reads a value that, if `c` writes it, it writes with all members that
`s` requires at version `v`.  As in `Verif.Json.KeepLaws` there is an invariant of the values that decoding starts with.
-/

namespace Verif

open Json (foldKey)

set_option linter.unusedSectionVars false
set_option linter.unusedSimpArgs false

theorem BlankRef.scant : ∀ {s : Sch} {j : Json}, BlankRef s j → Scant s j := by
  intro s j h
  induction h with
  | here => exact .left .blank
  | elem hj _ ih => exact .elem hj ih
  | member hm hl _ ih => exact .member hm hl ih
  | left _ ih => exact .left ih
  | right _ ih => exact .right ih
  | since _ ih => exact .since ih

theorem Ample.sound {v : Int} {s : Sch} {j : Json} (h : Ample v s j) : Sound v s j :=
  ⟨h.declared, h.required, fun hb => h.ample hb.scant⟩

theorem Ample.elem {v : Int} {s : Sch} {js : List Json} (h : Ample v (.list s) (.arr js)) : ∀ j ∈ js, Ample v s j :=
  fun j hj => ⟨conforms_list.1 h.declared j hj, required_list.1 h.required j hj, fun hb => h.ample (.elem hj hb)⟩
theorem Ample.since {v u : Int} {s : Sch} {j : Json} (h : Ample v (.since u s) j) : Ample v s j :=
  ⟨(conforms_since.1 h.declared).2, required_since.1 h.required, fun hb => h.ample (.since hb)⟩
theorem Ample.alt {v : Int} {s t : Sch} {j : Json} (h : Ample v (.alt s t) j) : Ample v s j ∨ Ample v t j := by
  have hr := required_alt.1 h.required
  rcases conforms_alt.1 h.declared with hc | hc
  · exact .inl ⟨hc, hr.1, fun hb => h.ample (.left hb)⟩
  · exact .inr ⟨hc, hr.2, fun hb => h.ample (.right hb)⟩
theorem Ample.member {v : Int} {p : Place} {ms : List (String × Json)} (h : Ample v (.place p) (.obj ms)) :
    ∀ m ∈ ms, ∃ s, p.members.lookup m.1 = some s ∧ Ample v s m.2 := by
  intro m hm
  obtain ⟨s, hs, hc⟩ := conforms_place.1 h.declared m hm
  exact ⟨s, hs, hc, (required_place.1 h.required).2 m hm s hs, fun hb => h.ample (.member hm hs hb)⟩

/-- If `c` writes `x`, it writes it with what is required. -/
def OutR {α : Type} (v : Int) (s : Sch) (c : JCodec α) (x : α) : Prop := ∀ j, c.enc x = some j → HasRequired v s j

/-- What `c` reads from ample documents less than `n` deep is written with what is required. -/
def FullC {α : Type} (n : Nat) (v : Int) (s : Sch) (c : JCodec α) : Prop :=
  ∃ I : α → Prop, I c.zero ∧ ∀ j old x, j.depth < n → Ample v s j → I old → c.dec j old = some x → I x ∧ OutR v s c x

/-- The same for the fields of a struct.  The invariant knows the members that have been read: those in `kept` are
written then; those in `req` are written with what is required only then. -/
def FullF {β : Type} (n : Nat) (v : Int) (p : Place) (req kept : List String) (F : JFields β) : Prop :=
  ∃ K : β → (String → Prop) → Prop, K F.zero (fun _ => False) ∧
    (∀ b S T, (∀ k ∈ F.names, T k → S k) → K b S → K b T) ∧
    (∀ k s j b b' S, p.members.lookup k = some s → j.depth < n → Ample v s j → F.names.Nodup →
      fieldFor F.names k = some k → K b S → F.set k j b = some b' → K b' fun x => S x ∨ x = k) ∧
    (∀ b S, (∀ k ∈ req, S k) → K b S → (∀ k ∈ F.names, k ∈ kept → S k → F.Writes b k) ∧
      ∀ ms, F.enc b = some ms → ∀ m ∈ ms, ∀ s, p.members.lookup m.1 = some s → HasRequired v s m.2)

/-- The members that are always written. -/
def JFields.always : {β : Type} → JFields β → List String
  | _, .nil => []
  | _, .skip _ F => F.always
  | _, .field n oe _ F => if oe then F.always else n :: F.always

theorem always_writes : ∀ {β : Type} (F : JFields β) (b : β), ∀ k ∈ F.always, F.Writes b k
  | _, .nil, _, k, h => by simp [JFields.always] at h
  | _, .skip _ F, b, k, h => always_writes F b.2 k h
  | _, .field n oe c F, b, k, h => by
    simp only [JFields.always] at h
    cases oe with
    | true => exact .inr (always_writes F b.2 k h)
    | false =>
      simp only [Bool.false_eq_true, if_false, List.mem_cons] at h
      rcases h with rfl | h
      · exact .inl ⟨rfl, by simp⟩
      · exact .inr (always_writes F b.2 k h)

section
variable [FloatIO]

theorem FullC.mono {α : Type} {m n : Nat} {v : Int} {s : Sch} {c : JCodec α} (h : FullC n v s c) (hmn : m ≤ n) :
    FullC m v s c := by
  obtain ⟨I, hz, h⟩ := h
  exact ⟨I, hz, fun j old x hj => h j old x (by omega)⟩

theorem outR_of_comp {α : Type} {v : Int} {s : Sch} {c : JCodec α} {x : α} (h : CompC v s c x True) : OutR v s c x :=
  fun j hj => (h j hj).2 trivial

theorem outR_plain {α : Type} {v : Int} {s : Sch} {c : JCodec α} {x : α} (h : s.plain = true) : OutR v s c x :=
  fun j _ => required_plain h j

theorem full_of_comp {α : Type} {n : Nat} {v : Int} {s : Sch} {c : JCodec α} (h : ∀ x, CompC v s c x True) :
    FullC n v s c := ⟨fun _ => True, trivial, fun _ _ _ _ _ _ _ => ⟨trivial, outR_of_comp (h _)⟩⟩

theorem full_plain {α : Type} {n : Nat} {v : Int} {s : Sch} {c : JCodec α} (h : s.plain = true) :
    FullC n v s c := ⟨fun _ => True, trivial, fun _ _ _ _ _ _ _ => ⟨trivial, outR_plain h⟩⟩

theorem full_since {α : Type} {n : Nat} {v u : Int} {s : Sch} {c : JCodec α} (h : FullC n v s c) :
    FullC n v (.since u s) c := by
  obtain ⟨I, hz, h⟩ := h
  refine ⟨I, hz, fun j old x hj hs hi hd => ?_⟩
  obtain ⟨hi, ho⟩ := h j old x hj hs.since hi hd
  exact ⟨hi, fun j hj => .since (ho j hj)⟩

theorem full_option {α : Type} {n : Nat} {v : Int} {s : Sch} {c : JCodec α} (h : FullC n v s c) :
    FullC n v s (JCodec.option c) := by
  obtain ⟨I, hz, h⟩ := h
  refine ⟨fun o => ∀ a ∈ o, I a, by simp [JCodec.option], fun j old x hj hs hi hd => ?_⟩
  have hn : j ≠ .null := fun e => not_conforms_null (e ▸ hs.declared)
  rw [option_dec_ne_null c hn, Option.map_eq_some_iff] at hd
  obtain ⟨a, ha, rfl⟩ := hd
  have hi' : I (old.getD c.zero) := by
    cases old with
    | none => exact hz
    | some b => exact hi b rfl
  obtain ⟨hi, ho⟩ := h j _ a hj hs hi' ha
  exact ⟨fun b hb => by cases hb; exact hi, ho⟩

theorem decList_full {α : Type} {n : Nat} {v : Int} {s : Sch} {c : JCodec α} {I : α → Prop} (hz : I c.zero)
    (h : ∀ j old x, j.depth < n → Ample v s j → I old → c.dec j old = some x → I x ∧ OutR v s c x) :
    ∀ (js : List Json) (olds xs : List α), (∀ j ∈ js, j.depth < n ∧ Ample v s j) → (∀ a ∈ olds, I a) →
      JCodec.decList c js olds = some xs → ∀ a ∈ xs, I a ∧ OutR v s c a
  | [], _, xs, _, _, hd => by
    simp only [JCodec.decList, Option.some.injEq] at hd
    subst hd
    simp
  | j :: js, olds, xs, hj, ho, hd => by
    simp only [JCodec.decList] at hd
    have hi : I (olds.headD c.zero) := by
      cases olds with
      | nil => exact hz
      | cons a _ => exact ho a List.mem_cons_self
    cases hc : c.dec j (olds.headD c.zero) with
    | none => rw [hc] at hd; cases hd
    | some a =>
      simp only [hc, Option.map_eq_some_iff] at hd
      obtain ⟨ys, hy, rfl⟩ := hd
      have h1 := hj j List.mem_cons_self
      have ih := decList_full hz h js olds.tail ys (fun i hi => hj i (List.mem_cons_of_mem _ hi))
        (fun b hb => ho b (List.mem_of_mem_tail hb)) hy
      intro b hb
      cases hb with
      | head => exact h j _ a h1.1 h1.2 hi hc
      | tail _ hb => exact ih b hb

theorem outR_encList {α : Type} {v : Int} {s : Sch} {c : JCodec α} : ∀ {xs : List α} {js : List Json},
    (∀ a ∈ xs, OutR v s c a) → JCodec.encList c xs = some js → ∀ j ∈ js, HasRequired v s j
  | [], js, _, h => by
    simp only [JCodec.encList, Option.some.injEq] at h
    subst h
    simp
  | x :: xs, js, hx, h => by
    simp only [JCodec.encList] at h
    cases hc : c.enc x with
    | none => simp [hc] at h
    | some j =>
      simp only [hc, Option.map_eq_some_iff] at h
      obtain ⟨js', h', rfl⟩ := h
      have ih := outR_encList (fun a ha => hx a (List.mem_cons_of_mem _ ha)) h'
      intro i hi
      cases hi with
      | head => exact hx x List.mem_cons_self j hc
      | tail _ hi => exact ih i hi

theorem full_list {α : Type} {n : Nat} {v : Int} {s : Sch} {c : JCodec α} (h : FullC n v s c) :
    FullC n v (.list s) (JCodec.pslice c) := by
  obtain ⟨I, hz, h⟩ := h
  refine ⟨fun p => ∀ a ∈ p.elems, I a, by simp [JCodec.pslice, PSlice.elems], fun j old x hj hs hi hd => ?_⟩
  cases j with
  | arr js =>
    have hj : Json.depthL js + 1 < n := hj
    simp only [JCodec.pslice, Option.map_eq_some_iff] at hd
    obtain ⟨xs, hx, rfl⟩ := hd
    have := decList_full hz h js old.elems xs
      (fun j hm => ⟨by have := depth_elem hm; omega, hs.elem j hm⟩) hi hx
    refine ⟨fun a ha => (this a ha).1, fun j hj => ?_⟩
    simp only [JCodec.pslice, Option.map_eq_some_iff] at hj
    obtain ⟨js', hj, rfl⟩ := hj
    exact .list (outR_encList (fun a ha => (this a ha).2) hj)
  | null => exact absurd hs.declared not_conforms_null
  | bool _ => cases hs.declared
  | num _ => cases hs.declared
  | str _ => cases hs.declared
  | obj _ => cases hs.declared

/-! ### Structs -/

theorem fullF_nil {n : Nat} {v : Int} {p : Place} {req kept : List String} : FullF n v p req kept .nil := by
  refine ⟨fun _ _ => True, trivial, fun _ _ _ _ _ => trivial, fun _ _ _ _ _ _ _ _ _ _ _ _ _ => trivial, ?_⟩
  intro b S _ _
  refine ⟨by simp [JFields.names], fun ms h => ?_⟩
  simp only [JFields.enc, Option.some.injEq] at h
  subst h
  simp

theorem fullF_skip {n : Nat} {v : Int} {p : Place} {req kept : List String} {α β : Type} {z : α} {F : JFields β}
    (h : FullF n v p req kept F) : FullF n v p req kept (.skip z F) := by
  obtain ⟨K, hz, hw, hs, ho⟩ := h
  refine ⟨fun b S => K b.2 S, hz, fun b S T => hw b.2 S T, ?_, fun b S => ho b.2 S⟩
  intro k s j b b' S hl hj hc hn hf hk hd
  simp only [JFields.set, Option.map_eq_some_iff] at hd
  obtain ⟨c, hd, rfl⟩ := hd
  exact hs k s j b.2 c S hl hj hc hn hf hk hd

/-- A field with an invariant `P` of its value that may depend on whether its member has been read. -/
theorem fullF_cons {n : Nat} {v : Int} {p : Place} {req kept : List String} {α β : Type} {k : String} {oe : Bool}
    {c : JCodec α} {F : JFields β} (P : α → Prop → Prop) (hz : P c.zero False)
    (hw : ∀ a S T, (T → S) → P a S → P a T)
    (hs : ∀ s j old x S, p.members.lookup k = some s → j.depth < n → Ample v s j → P old S → c.dec j old = some x →
      P x True)
    (ho : ∀ a S, (k ∈ req → S) → P a S → (k ∈ kept → S → oe = true → c.empty a = false) ∧
      ((oe && c.empty a) = true ∨ ∀ j, c.enc a = some j → ∀ s, p.members.lookup k = some s → HasRequired v s j))
    (h : FullF n v p req kept F) : FullF n v p req kept (.field k oe c F) := by
  obtain ⟨K, kz, kw, ks, ko⟩ := h
  refine ⟨fun b S => P b.1 (S k) ∧ K b.2 S, ⟨hz, kz⟩, ?_, ?_, ?_⟩
  · intro b S T hT hk
    refine ⟨hw _ _ _ (hT k (by simp [JFields.names])) hk.1, kw _ S T (fun x hx => hT x ?_) hk.2⟩
    simp [JFields.names, hx]
  · intro m s j b b' S hl hj hc hn hf hk hd
    simp only [JFields.names, List.nodup_cons] at hn
    simp only [fieldFor, JFields.names, List.find?_cons] at hf
    by_cases e : foldKey m = foldKey k
    · simp only [e, decide_true, Option.some.injEq] at hf
      subst hf
      simp only [JFields.set, if_true, Option.map_eq_some_iff] at hd
      obtain ⟨x, hd, rfl⟩ := hd
      refine ⟨hw _ True _ (fun _ => trivial) (hs s j b.1 x (S k) hl hj hc hk.1 hd), kw _ S _ ?_ hk.2⟩
      rintro y hy (h | rfl)
      · exact h
      · exact absurd hy hn.1
    · simp only [e, decide_false] at hf
      simp only [JFields.set, e, if_false, Option.map_eq_some_iff] at hd
      obtain ⟨x, hd, rfl⟩ := hd
      refine ⟨hw _ (S k) _ ?_ hk.1, ks m s j b.2 x S hl hj hc hn.2 hf hk.2 hd⟩
      rintro (h | rfl)
      · exact h
      · exact absurd rfl e
  · intro b S hr hk
    obtain ⟨kr, ko⟩ := ko b.2 S hr hk.2
    obtain ⟨h0, h1⟩ := ho b.1 (S k) (hr k) hk.1
    refine ⟨?_, fun ms he => ?_⟩
    · intro m hm hkept hS
      simp only [JFields.names, List.mem_cons] at hm
      rcases hm with rfl | hm
      · exact .inl ⟨rfl, h0 hkept hS⟩
      · exact .inr (kr m hm hkept hS)
    simp only [JFields.enc] at he
    by_cases h2 : (oe && c.empty b.1) = true
    · rw [if_pos h2] at he
      exact ko ms he
    · rw [if_neg h2] at he
      cases hc : c.enc b.1 with
      | none => simp [hc] at he
      | some j =>
        simp only [hc, Option.map_eq_some_iff] at he
        obtain ⟨ms', hm, rfl⟩ := he
        intro m hm'
        cases hm' with
        | head => exact (h1.resolve_left h2) j hc
        | tail _ hm' => exact ko ms' hm m hm'

/-- What is read is not empty. -/
def Fills {α : Type} (v : Int) (s : Sch) (c : JCodec α) : Prop :=
  ∀ j old x, Ample v s j → c.dec j old = some x → c.empty x = false

theorem fills_option {α : Type} {v : Int} {s : Sch} {c : JCodec α} : Fills v s (JCodec.option c) := by
  intro j old x hs hd
  have hn : j ≠ .null := fun e => not_conforms_null (e ▸ hs.declared)
  rw [option_dec_ne_null c hn, Option.map_eq_some_iff] at hd
  obtain ⟨a, _, rfl⟩ := hd
  rfl
theorem fills_list {α : Type} {v : Int} {s : Sch} {c : JCodec α} : Fills v (.list s) (JCodec.pslice c) := by
  intro j old x hs hd
  obtain ⟨js, rfl⟩ := conforms_list_arr hs.declared
  simp only [JCodec.pslice, Option.map_eq_some_iff] at hd
  obtain ⟨a, _, rfl⟩ := hd
  rfl
theorem fills_string {v : Int} : Fills v .str JCodec.string := by
  intro j old x hs hd
  obtain ⟨t, rfl⟩ := conforms_str.1 hs.declared
  simp only [JCodec.string, Option.some.injEq] at hd
  subst hd
  rw [nem_string]
  rintro rfl
  exact hs.ample .blank
theorem fills_bomReference {v : Int} : Fills v .str J.bomReference := by
  intro j old x hs hd
  obtain ⟨t, rfl⟩ := conforms_str.1 hs.declared
  rw [nem_bomReference]
  rintro rfl
  simp [J.bomReference] at hd
  subst hd
  exact hs.ample .blank
theorem fills_since {α : Type} {v u : Int} {s : Sch} {c : JCodec α} (h : Fills v s c) : Fills v (.since u s) c :=
  fun j old x hs => h j old x hs.since

/-- A declared field that is left out, or written with what is required, also when its member has not been read. -/
theorem fullF_field {n : Nat} {v : Int} {p : Place} {req kept : List String} {α β : Type} {k : String} {oe : Bool}
    {c : JCodec α} {F : JFields β} (s : Sch) (hl : p.members.lookup k = some s) (h : FullC n v s c)
    (hz : (oe && c.empty c.zero) = true ∨ OutR v s c c.zero) (he : k ∈ kept → oe = true → Fills v s c)
    (hF : FullF n v p req kept F) : FullF n v p req kept (.field k oe c F) := by
  obtain ⟨I, iz, h⟩ := h
  refine fullF_cons (fun a S => I a ∧ ((oe && c.empty a) = true ∨ OutR v s c a) ∧
    (k ∈ kept → S → oe = true → c.empty a = false)) ⟨iz, hz, fun _ h => h.elim⟩
    (fun _ _ _ hT h => ⟨h.1, h.2.1, fun hk ht => h.2.2 hk (hT ht)⟩) ?_ ?_ hF
  · intro t j old x S ht hj hs hi hd
    rw [hl, Option.some.injEq] at ht
    subst ht
    obtain ⟨hi, ho⟩ := h j old x hj hs hi.1 hd
    exact ⟨hi, .inr ho, fun hk _ ho => he hk ho j old x hs hd⟩
  · rintro a S _ ⟨_, h, hw⟩
    refine ⟨hw, h.imp_right fun h j hj t ht => ?_⟩
    rw [hl, Option.some.injEq] at ht
    subst ht
    exact h j hj

/-- A declared field whose member is there. -/
theorem fullF_req {n : Nat} {v : Int} {p : Place} {req kept : List String} {α β : Type} {k : String} {oe : Bool}
    {c : JCodec α} {F : JFields β} (s : Sch) (hl : p.members.lookup k = some s) (h : FullC n v s c)
    (hk : k ∈ req) (he : k ∈ kept → oe = true → Fills v s c) (hF : FullF n v p req kept F) :
    FullF n v p req kept (.field k oe c F) := by
  obtain ⟨I, iz, h⟩ := h
  refine fullF_cons (fun a S => I a ∧ (S → OutR v s c a) ∧ (k ∈ kept → S → oe = true → c.empty a = false))
    ⟨iz, False.elim, fun _ h => h.elim⟩ (fun _ _ _ hT hp => ⟨hp.1, hp.2.1 ∘ hT, fun hk ht => hp.2.2 hk (hT ht)⟩) ?_ ?_ hF
  · intro t j old x S ht hj hs hi hd
    rw [hl, Option.some.injEq] at ht
    subst ht
    obtain ⟨hi, ho⟩ := h j old x hj hs hi.1 hd
    exact ⟨hi, fun _ => ho, fun hk _ ho => he hk ho j old x hs hd⟩
  · rintro a S hr ⟨_, h, hw⟩
    refine ⟨hw, .inr fun j hj t ht => ?_⟩
    rw [hl, Option.some.injEq] at ht
    subst ht
    exact h (hr hk) j hj

/-- A field that is not declared is not read. -/
theorem fullF_none {n : Nat} {v : Int} {p : Place} {req kept : List String} {α β : Type} {k : String} {oe : Bool}
    {c : JCodec α} {F : JFields β} (hl : p.members.lookup k = none) (hF : FullF n v p req kept F) :
    FullF n v p req kept (.field k oe c F) := by
  refine fullF_cons (fun a S => ¬ S) (fun h => h) (fun _ _ _ hT h t => h (hT t)) ?_ ?_ hF
  · intro t j old x S ht
    rw [hl] at ht; cases ht
  · intro a S _ h
    refine ⟨fun _ s => absurd s h, .inr fun j hj s hs => ?_⟩
    rw [hl] at hs; cases hs

theorem decMembers_full {n : Nat} {v : Int} {p : Place} {lost names : List String} {β : Type} {F : JFields β}
    {K : β → (String → Prop) → Prop} (hF : F.names = names) (hnd : names.Nodup)
    (hn : (p.members.all fun m => fieldFor names m.1 = if m.1 ∈ lost then none else some m.1) = true)
    (kw : ∀ b S T, (∀ k ∈ F.names, T k → S k) → K b S → K b T)
    (ks : ∀ k s j b b' S, p.members.lookup k = some s → j.depth < n → Ample v s j → F.names.Nodup →
      fieldFor F.names k = some k → K b S → F.set k j b = some b' → K b' fun x => S x ∨ x = k) :
    ∀ (ms : List (String × Json)) (b b' : β) (S : String → Prop),
      (∀ m ∈ ms, m.2.depth < n ∧ ∃ s, p.members.lookup m.1 = some s ∧ Ample v s m.2) → K b S →
      F.decMembers ms b = some b' → K b' fun x => S x ∨ ∃ m ∈ ms, m.1 = x
  | [], b, b', S, _, hk, hd => by
    simp only [JFields.decMembers, Option.some.injEq] at hd
    subst hd
    exact kw _ S _ (by simp) hk
  | m :: ms, b, b', S, hm, hk, hd => by
    rw [decMembers_cons] at hd
    cases he : F.set m.1 m.2 b with
    | none => simp [he] at hd
    | some c =>
      rw [he, Option.bind_some] at hd
      obtain ⟨hj, s, hl, hs⟩ := hm m List.mem_cons_self
      have hc : K c fun x => S x ∨ x = m.1 := by
        rw [List.all_eq_true] at hn
        have hf := hn _ (lookup_mem hl)
        simp only [decide_eq_true_eq] at hf
        by_cases e : m.1 ∈ lost
        · rw [if_pos e] at hf
          rw [set_unknown F b (by rw [hF]; exact hf), Option.some.injEq] at he
          subst he
          refine kw _ S _ ?_ hk
          rintro k hk (h | rfl)
          · exact h
          · rw [hF] at hk
            simp only [fieldFor, List.find?_eq_none, decide_eq_true_eq] at hf
            exact absurd rfl (hf _ hk)
        · rw [if_neg e] at hf
          exact ks m.1 s m.2 b c S hl hj hs (hF ▸ hnd) (by rw [hF]; exact hf) hk he
      have := decMembers_full hF hnd hn kw ks ms c b' _ (fun i hi => hm i (List.mem_cons_of_mem _ hi)) hc hd
      refine kw _ _ _ ?_ this
      rintro k _ (h | ⟨i, hi, rfl⟩)
      · exact .inl (.inl h)
      · cases hi with
        | head => exact .inl (.inr rfl)
        | tail _ hi => exact .inr ⟨i, hi, rfl⟩

/-- `lost` are the members without a field, `req` members that the documents have, `D` what else is known of them. -/
theorem full_structD {n : Nat} {v : Int} {p : Place} {σ β : Type} {F : JFields β} {toP : σ → β} {ofP : β → σ}
    (D : List (String × Json) → Prop)
    (req lost names kept : List String) (hP : ∀ b, toP (ofP b) = b)
    (hr : ∀ ms, Ample v (.place p) (.obj ms) → ∀ k ∈ req, ∃ m ∈ ms, m.1 = k)
    (hF : F.names = names) (hk : kept ⊆ names) (hnd : names.Nodup)
    (hn : (p.members.all fun m => fieldFor names m.1 = if m.1 ∈ lost then none else some m.1) = true)
    (hN : ∀ ms, Ample v (.place p) (.obj ms) → D ms → ∀ W : String → Prop, (∀ k ∈ kept, (∃ m ∈ ms, m.1 = k) → W k) →
      (∀ k ∈ F.always, W k) → p.Needs v W)
    (h : FullF n v p req kept F) : ∃ I : σ → Prop, I (ofP F.zero) ∧ ∀ ms old x, Json.depthM ms < n →
      Ample v (.place p) (.obj ms) → D ms → I old → (JCodec.struct F toP ofP).dec (.obj ms) old = some x →
        I x ∧ OutR v (.place p) (JCodec.struct F toP ofP) x := by
  obtain ⟨K, kz, kw, ks, ko⟩ := h
  refine ⟨fun x => K (toP x) fun _ => False, by simp only [hP]; exact kz, ?_⟩
  intro ms old x hj hs hD hi hd
  simp only [JCodec.struct, Option.map_eq_some_iff] at hd
  obtain ⟨b, hd, rfl⟩ := hd
  have hk' := decMembers_full hF hnd hn kw ks ms _ b _
    (fun m hm => ⟨by have := depth_member hm; omega, hs.member m hm⟩) hi hd
  refine ⟨?_, ?_⟩
  · show K (toP (ofP b)) _
    rw [hP]; exact kw _ _ _ (fun _ _ h => h.elim) hk'
  · intro j hj
    simp only [JCodec.struct, hP, Option.map_eq_some_iff] at hj
    obtain ⟨ms', hm, rfl⟩ := hj
    obtain ⟨h1, h2⟩ := ko b _ (fun k hk => .inr (hr ms hs k hk)) hk'
    rw [required_place]
    refine ⟨?_, h2 ms' hm⟩
    have e : (fun k => ∃ m ∈ ms', m.1 = k) = F.Writes b := funext fun k => propext (has_iff F b hm k)
    rw [e]
    exact hN ms hs hD _ (fun k hk' hm => h1 k (hF ▸ hk hk') hk' (.inr hm)) (always_writes F b)

theorem full_struct' {n : Nat} {v : Int} {p : Place} {σ β : Type} {F : JFields β} {toP : σ → β} {ofP : β → σ}
    (req lost names kept : List String) (hP : ∀ b, toP (ofP b) = b)
    (hr : ∀ ms, Ample v (.place p) (.obj ms) → ∀ k ∈ req, ∃ m ∈ ms, m.1 = k)
    (hF : F.names = names) (hk : kept ⊆ names) (hnd : names.Nodup)
    (hn : (p.members.all fun m => fieldFor names m.1 = if m.1 ∈ lost then none else some m.1) = true)
    (always : List String) (ha : F.always = always)
    (hN : ∀ has W : String → Prop, p.Needs v has → (∀ k ∈ kept, has k → W k) → (∀ k ∈ always, W k) → p.Needs v W)
    (h : FullF n v p req kept F) : FullC (n + 1) v (.place p) (JCodec.struct F toP ofP) := by
  obtain ⟨I, iz, h⟩ := full_structD (fun _ => True) req lost names kept hP hr hF hk hnd hn
    (fun ms hs _ W h1 h2 => hN _ W (required_place.1 hs.required).1 h1 (ha ▸ h2)) h
  refine ⟨I, iz, fun j old x hj hs hi hd => ?_⟩
  obtain ⟨ms, rfl⟩ := conforms_place_obj hs.declared
  have hj : Json.depthM ms + 1 < n + 1 := hj
  exact h ms old x (by omega) hs trivial hi hd

theorem full_struct {n : Nat} {v : Int} {p : Place} {σ β : Type} {F : JFields β} {toP : σ → β} {ofP : β → σ}
    (req lost names kept : List String) (hP : ∀ b, toP (ofP b) = b)
    (hr : ∀ ms, Ample v (.place p) (.obj ms) → ∀ k ∈ req, ∃ m ∈ ms, m.1 = k)
    (hF : F.names = names) (hk : kept ⊆ names) (hnd : names.Nodup)
    (hn : (p.members.all fun m => fieldFor names m.1 = if m.1 ∈ lost then none else some m.1) = true)
    (always : List String) (ha : F.always = always)
    (hN : ∀ has W : String → Prop, p.Needs v has → (∀ k ∈ kept, has k → W k) → (∀ k ∈ always, W k) → p.Needs v W)
    (h : FullF n v p req kept F) : FullC n v (.place p) (JCodec.struct F toP ofP) :=
  (full_struct' req lost names kept hP hr hF hk hnd hn always ha hN h).mono (Nat.le_succ n)

end

variable [FloatIO]

