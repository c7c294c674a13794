import Verif.Spec.JsonTerse
import Verif.Json.EnumLaws
import Verif.Json.FullLaws

/-!
# What is read from a document with only enumerated strings is written with only enumerated strings

GENERATED by `tools/gen_relisted.py`; do not edit by hand.  `LstC n v s c`: from a document less than `n` deep that is
`Proper` for `s` at version `v` the codec `c` reads a value that, if `c` writes it, it writes with only strings that
version `v` enumerates.  As in `Verif.Json.KeepLaws` there is an invariant of the values that decoding starts with.
-/

namespace Verif

open Json (foldKey)

set_option linter.unusedSectionVars false
set_option linter.unusedSimpArgs false

theorem Proper.elem {v : Int} {s : Sch} {js : List Json} (h : Proper v (.list s) (.arr js)) : ∀ j ∈ js, Proper v s j :=
  fun j hj => ⟨conforms_list.1 h.declared j hj, required_list.1 h.required j hj, listed_list.1 h.listed j hj,
    fun hb => h.stated (.elem hj hb)⟩
theorem Proper.since {v u : Int} {s : Sch} {j : Json} (h : Proper v (.since u s) j) : Proper v s j :=
  ⟨(conforms_since.1 h.declared).2, required_since.1 h.required, listed_since.1 h.listed,
    fun hb => h.stated (.since hb)⟩
theorem Proper.alt {v : Int} {s t : Sch} {j : Json} (h : Proper v (.alt s t) j) : Proper v s j ∨ Proper v t j := by
  have hr := required_alt.1 h.required
  have hl := listed_alt.1 h.listed
  rcases conforms_alt.1 h.declared with hc | hc
  · exact .inl ⟨hc, hr.1, hl.1, fun hb => h.stated (.left hb)⟩
  · exact .inr ⟨hc, hr.2, hl.2, fun hb => h.stated (.right hb)⟩
theorem Proper.member {v : Int} {p : Place} {ms : List (String × Json)} (h : Proper v (.place p) (.obj ms)) :
    ∀ m ∈ ms, p.ListsValue v m.1 m.2 ∧ ∃ s, p.members.lookup m.1 = some s ∧ Proper v s m.2 := by
  intro m hm
  obtain ⟨s, hs, hc⟩ := conforms_place.1 h.declared m hm
  have hl := listed_place.1 h.listed m hm
  exact ⟨hl.1, s, hs, hc, (required_place.1 h.required).2 m hm s hs, hl.2 s hs, fun hb => h.stated (.member hm hs hb)⟩

/-- If `c` writes `x`, it writes it with enumerated strings. -/
def OutL {α : Type} (v : Int) (s : Sch) (c : JCodec α) (x : α) : Prop := ∀ j, c.enc x = some j → HasListed v s j

/-- The member is written with enumerated strings. -/
def MemberL (v : Int) (p : Place) (m : String × Json) : Prop :=
  p.ListsValue v m.1 m.2 ∧ ∀ s, p.members.lookup m.1 = some s → HasListed v s m.2

/-- What `c` reads from proper documents less than `n` deep is written with enumerated strings. -/
def LstC {α : Type} (n : Nat) (v : Int) (s : Sch) (c : JCodec α) : Prop :=
  ∃ I : α → Prop, I c.zero ∧ ∀ j old x, j.depth < n → Proper v s j → I old → c.dec j old = some x → I x ∧ OutL v s c x

/-- The same for the fields of a struct.  The invariant knows the members that have been read; `req` are those that are
written with enumerated strings only when they have been. -/
def LstF {β : Type} (n : Nat) (v : Int) (p : Place) (req : List String) (F : JFields β) : Prop :=
  ∃ K : β → (String → Prop) → Prop, K F.zero (fun _ => False) ∧
    (∀ b S T, (∀ k ∈ F.names, T k → S k) → K b S → K b T) ∧
    (∀ k s j b b' S, p.members.lookup k = some s → j.depth < n → Proper v s j → p.ListsValue v k j → F.names.Nodup →
      fieldFor F.names k = some k → K b S → F.set k j b = some b' → K b' fun x => S x ∨ x = k) ∧
    (∀ b S ms, (∀ k ∈ req, S k) → K b S → F.enc b = some ms → ∀ m ∈ ms, MemberL v p m)

section
variable [FloatIO]

theorem LstC.mono {α : Type} {m n : Nat} {v : Int} {s : Sch} {c : JCodec α} (h : LstC n v s c) (hmn : m ≤ n) :
    LstC m v s c := by
  obtain ⟨I, hz, h⟩ := h
  exact ⟨I, hz, fun j old x hj => h j old x (by omega)⟩

theorem outL_of_enum {α : Type} {v : Int} {s : Sch} {c : JCodec α} {x : α} (h : EnumC v s c x True) : OutL v s c x :=
  fun j hj => (h j hj).2 trivial

theorem lst_of_enum {α : Type} {n : Nat} {v : Int} {s : Sch} {c : JCodec α} (h : ∀ x, EnumC v s c x True) :
    LstC n v s c := ⟨fun _ => True, trivial, fun _ _ _ _ _ _ _ => ⟨trivial, outL_of_enum (h _)⟩⟩

theorem lst_plain {α : Type} {n : Nat} {v : Int} {s : Sch} {c : JCodec α} (h : s.plain = true) :
    LstC n v s c := ⟨fun _ => True, trivial, fun _ _ _ _ _ _ _ => ⟨trivial, fun j _ => listed_plain h j⟩⟩

theorem lst_since {α : Type} {n : Nat} {v u : Int} {s : Sch} {c : JCodec α} (h : LstC n v s c) :
    LstC n v (.since u s) c := by
  obtain ⟨I, hz, h⟩ := h
  refine ⟨I, hz, fun j old x hj hs hi hd => ?_⟩
  obtain ⟨hi, ho⟩ := h j old x hj hs.since hi hd
  exact ⟨hi, fun j hj => .since (ho j hj)⟩

theorem lst_option {α : Type} {n : Nat} {v : Int} {s : Sch} {c : JCodec α} (h : LstC n v s c) :
    LstC n v s (JCodec.option c) := by
  obtain ⟨I, hz, h⟩ := h
  refine ⟨fun o => ∀ a ∈ o, I a, by simp [JCodec.option], fun j old x hj hs hi hd => ?_⟩
  have hn : j ≠ .null := fun e => not_conforms_null (e ▸ hs.declared)
  rw [option_dec_ne_null c hn, Option.map_eq_some_iff] at hd
  obtain ⟨a, ha, rfl⟩ := hd
  have hi' : I (old.getD c.zero) := by
    cases old with
    | none => exact hz
    | some b => exact hi b rfl
  obtain ⟨hi, ho⟩ := h j _ a hj hs hi' ha
  exact ⟨fun b hb => by cases hb; exact hi, ho⟩

theorem decList_lst {α : Type} {n : Nat} {v : Int} {s : Sch} {c : JCodec α} {I : α → Prop} (hz : I c.zero)
    (h : ∀ j old x, j.depth < n → Proper v s j → I old → c.dec j old = some x → I x ∧ OutL v s c x) :
    ∀ (js : List Json) (olds xs : List α), (∀ j ∈ js, j.depth < n ∧ Proper v s j) → (∀ a ∈ olds, I a) →
      JCodec.decList c js olds = some xs → ∀ a ∈ xs, I a ∧ OutL v s c a
  | [], _, xs, _, _, hd => by
    simp only [JCodec.decList, Option.some.injEq] at hd
    subst hd
    simp
  | j :: js, olds, xs, hj, ho, hd => by
    simp only [JCodec.decList] at hd
    have hi : I (olds.headD c.zero) := by
      cases olds with
      | nil => exact hz
      | cons a _ => exact ho a List.mem_cons_self
    cases hc : c.dec j (olds.headD c.zero) with
    | none => rw [hc] at hd; cases hd
    | some a =>
      simp only [hc, Option.map_eq_some_iff] at hd
      obtain ⟨ys, hy, rfl⟩ := hd
      have h1 := hj j List.mem_cons_self
      have ih := decList_lst hz h js olds.tail ys (fun i hi => hj i (List.mem_cons_of_mem _ hi))
        (fun b hb => ho b (List.mem_of_mem_tail hb)) hy
      intro b hb
      cases hb with
      | head => exact h j _ a h1.1 h1.2 hi hc
      | tail _ hb => exact ih b hb

theorem outL_encList {α : Type} {v : Int} {s : Sch} {c : JCodec α} : ∀ {xs : List α} {js : List Json},
    (∀ a ∈ xs, OutL v s c a) → JCodec.encList c xs = some js → ∀ j ∈ js, HasListed v s j
  | [], js, _, h => by
    simp only [JCodec.encList, Option.some.injEq] at h
    subst h
    simp
  | x :: xs, js, hx, h => by
    simp only [JCodec.encList] at h
    cases hc : c.enc x with
    | none => simp [hc] at h
    | some j =>
      simp only [hc, Option.map_eq_some_iff] at h
      obtain ⟨js', h', rfl⟩ := h
      have ih := outL_encList (fun a ha => hx a (List.mem_cons_of_mem _ ha)) h'
      intro i hi
      cases hi with
      | head => exact hx x List.mem_cons_self j hc
      | tail _ hi => exact ih i hi

theorem lst_list {α : Type} {n : Nat} {v : Int} {s : Sch} {c : JCodec α} (h : LstC n v s c) :
    LstC n v (.list s) (JCodec.pslice c) := by
  obtain ⟨I, hz, h⟩ := h
  refine ⟨fun p => ∀ a ∈ p.elems, I a, by simp [JCodec.pslice, PSlice.elems], fun j old x hj hs hi hd => ?_⟩
  cases j with
  | arr js =>
    have hj : Json.depthL js + 1 < n := hj
    simp only [JCodec.pslice, Option.map_eq_some_iff] at hd
    obtain ⟨xs, hx, rfl⟩ := hd
    have := decList_lst hz h js old.elems xs
      (fun j hm => ⟨by have := depth_elem hm; omega, hs.elem j hm⟩) hi hx
    refine ⟨fun a ha => (this a ha).1, fun j hj => ?_⟩
    simp only [JCodec.pslice, Option.map_eq_some_iff] at hj
    obtain ⟨js', hj, rfl⟩ := hj
    exact .list (outL_encList (fun a ha => (this a ha).2) hj)
  | null => exact absurd hs.declared not_conforms_null
  | bool _ => cases hs.declared
  | num _ => cases hs.declared
  | str _ => cases hs.declared
  | obj _ => cases hs.declared

/-! ### Structs -/

theorem lstF_nil {n : Nat} {v : Int} {p : Place} {req : List String} : LstF n v p req .nil := by
  refine ⟨fun _ _ => True, trivial, fun _ _ _ _ _ => trivial, fun _ _ _ _ _ _ _ _ _ _ _ _ _ _ => trivial, ?_⟩
  intro b S ms _ _ h
  simp only [JFields.enc, Option.some.injEq] at h
  subst h
  simp

theorem lstF_skip {n : Nat} {v : Int} {p : Place} {req : List String} {α β : Type} {z : α} {F : JFields β}
    (h : LstF n v p req F) : LstF n v p req (.skip z F) := by
  obtain ⟨K, hz, hw, hs, ho⟩ := h
  refine ⟨fun b S => K b.2 S, hz, fun b S T => hw b.2 S T, ?_, fun b S ms => ho b.2 S ms⟩
  intro k s j b b' S hl hj hc hv hn hf hk hd
  simp only [JFields.set, Option.map_eq_some_iff] at hd
  obtain ⟨c, hd, rfl⟩ := hd
  exact hs k s j b.2 c S hl hj hc hv hn hf hk hd

/-- A field with an invariant `P` of its value that may depend on whether its member has been read. -/
theorem lstF_cons {n : Nat} {v : Int} {p : Place} {req : List String} {α β : Type} {k : String} {oe : Bool}
    {c : JCodec α} {F : JFields β} (P : α → Prop → Prop) (hz : P c.zero False)
    (hw : ∀ a S T, (T → S) → P a S → P a T)
    (hs : ∀ s j old x S, p.members.lookup k = some s → j.depth < n → Proper v s j →
      p.ListsValue v k j → P old S → c.dec j old = some x →
      P x True)
    (ho : ∀ a S, (k ∈ req → S) → P a S → (oe && c.empty a) = true ∨ ∀ j, c.enc a = some j → MemberL v p (k, j))
    (h : LstF n v p req F) : LstF n v p req (.field k oe c F) := by
  obtain ⟨K, kz, kw, ks, ko⟩ := h
  refine ⟨fun b S => P b.1 (S k) ∧ K b.2 S, ⟨hz, kz⟩, ?_, ?_, ?_⟩
  · intro b S T hT hk
    refine ⟨hw _ _ _ (hT k (by simp [JFields.names])) hk.1, kw _ S T (fun x hx => hT x ?_) hk.2⟩
    simp [JFields.names, hx]
  · intro m s j b b' S hl hj hc hv hn hf hk hd
    simp only [JFields.names, List.nodup_cons] at hn
    simp only [fieldFor, JFields.names, List.find?_cons] at hf
    by_cases e : foldKey m = foldKey k
    · simp only [e, decide_true, Option.some.injEq] at hf
      subst hf
      simp only [JFields.set, if_true, Option.map_eq_some_iff] at hd
      obtain ⟨x, hd, rfl⟩ := hd
      refine ⟨hw _ True _ (fun _ => trivial) (hs s j b.1 x (S k) hl hj hc hv hk.1 hd), kw _ S _ ?_ hk.2⟩
      rintro y hy (h | rfl)
      · exact h
      · exact absurd hy hn.1
    · simp only [e, decide_false] at hf
      simp only [JFields.set, e, if_false, Option.map_eq_some_iff] at hd
      obtain ⟨x, hd, rfl⟩ := hd
      refine ⟨hw _ (S k) _ ?_ hk.1, ks m s j b.2 x S hl hj hc hv hn.2 hf hk.2 hd⟩
      rintro (h | rfl)
      · exact h
      · exact absurd rfl e
  · intro b S ms hr hk he
    simp only [JFields.enc] at he
    rcases ho b.1 (S k) (hr k) hk.1 with h1 | h1
    · rw [if_pos h1] at he
      exact ko b.2 S ms hr hk.2 he
    · by_cases h2 : (oe && c.empty b.1) = true
      · rw [if_pos h2] at he
        exact ko b.2 S ms hr hk.2 he
      · rw [if_neg h2] at he
        cases hc : c.enc b.1 with
        | none => simp [hc] at he
        | some j =>
          simp only [hc, Option.map_eq_some_iff] at he
          obtain ⟨ms', hm, rfl⟩ := he
          intro m hm'
          cases hm' with
          | head => exact h1 j hc
          | tail _ hm' => exact ko b.2 S ms' hr hk.2 hm m hm'

/-- What is read of a member with enumerated strings is written with the same strings. -/
def Echo {α : Type} (v : Int) (s : Sch) (c : JCodec α) : Prop :=
  ∀ (p : Place) (k : String) (j : Json) (old x : α) (j' : Json), Conforms v s j → c.dec j old = some x →
    c.enc x = some j' → p.ListsValue v k j → p.ListsValue v k j'

theorem echo_string {v : Int} : Echo v .str JCodec.string := by
  intro p k j old x j' hc hd he hl
  obtain ⟨t, rfl⟩ := conforms_str.1 hc
  simp only [JCodec.string, Option.some.injEq] at hd he
  subst hd he
  exact hl
theorem echo_option {α : Type} {v : Int} {s : Sch} {c : JCodec α} (h : Echo v s c) : Echo v s (JCodec.option c) := by
  intro p k j old x j' hc hd he hl
  have hn : j ≠ .null := fun e => not_conforms_null (e ▸ hc)
  rw [option_dec_ne_null c hn, Option.map_eq_some_iff] at hd
  obtain ⟨a, ha, rfl⟩ := hd
  exact h p k j _ a j' hc ha he hl
theorem echo_since {α : Type} {v u : Int} {s : Sch} {c : JCodec α} (h : Echo v s c) : Echo v (.since u s) c :=
  fun p k j old x j' hc => h p k j old x j' (conforms_since.1 hc).2
theorem decList_strings : ∀ {js : List Json} {olds xs : List String}, (∀ j ∈ js, ∃ t, j = .str t) →
    JCodec.decList JCodec.string js olds = some xs → js = xs.map .str
  | [], _, xs, _, hd => by
    simp only [JCodec.decList, Option.some.injEq] at hd
    subst hd
    rfl
  | j :: js, olds, xs, hj, hd => by
    obtain ⟨t, rfl⟩ := hj j List.mem_cons_self
    simp only [JCodec.decList, JCodec.string, Option.map_eq_some_iff] at hd
    obtain ⟨ys, hy, rfl⟩ := hd
    rw [decList_strings (fun i hi => hj i (List.mem_cons_of_mem _ hi)) hy]
    rfl
theorem echo_list {v : Int} : Echo v (.list .str) (JCodec.pslice JCodec.string) := by
  intro p k j old x j' hc hd he hl
  obtain ⟨js, rfl⟩ := conforms_list_arr hc
  simp only [JCodec.pslice, Option.map_eq_some_iff] at hd
  obtain ⟨xs, hx, rfl⟩ := hd
  simp only [JCodec.pslice, Option.map_eq_some_iff] at he
  obtain ⟨js', he, rfl⟩ := he
  rw [enc_strings he, ← decList_strings (fun j hj => conforms_str.1 (conforms_list.1 hc j hj)) hx]
  exact hl

/-- A field without enumerations in it. -/
theorem lstF_free {n : Nat} {v : Int} {p : Place} {req : List String} {α β : Type} {k : String} {oe : Bool}
    {c : JCodec α} {F : JFields β} (he : p.enums.lookup k = none)
    (hp : (p.members.lookup k).all Sch.plain = true) (hF : LstF n v p req F) : LstF n v p req (.field k oe c F) := by
  refine lstF_cons (fun _ _ => True) trivial (fun _ _ _ _ => id) (fun _ _ _ _ _ _ _ _ _ _ _ => trivial) ?_ hF
  intro a S _ _
  refine .inr fun j hj => ⟨lists_none he j, fun s hs => listed_plain ?_ j⟩
  simp only at hs
  rw [hs] at hp
  exact hp

/-- A field without enumeration of its own that is left out, or written with enumerated strings, also when its member
has not been read. -/
theorem lstF_field {n : Nat} {v : Int} {p : Place} {req : List String} {α β : Type} {k : String} {oe : Bool}
    {c : JCodec α} {F : JFields β} (s : Sch) (hl : p.members.lookup k = some s) (he : p.enums.lookup k = none)
    (h : LstC n v s c) (hz : (oe && c.empty c.zero) = true ∨ OutL v s c c.zero) (hF : LstF n v p req F) :
    LstF n v p req (.field k oe c F) := by
  obtain ⟨I, iz, h⟩ := h
  refine lstF_cons (fun a _ => I a ∧ ((oe && c.empty a) = true ∨ OutL v s c a)) ⟨iz, hz⟩ (fun _ _ _ _ => id) ?_ ?_ hF
  · intro t j old x S ht hj hs _ hi hd
    rw [hl, Option.some.injEq] at ht
    subst ht
    obtain ⟨hi, ho⟩ := h j old x hj hs hi.1 hd
    exact ⟨hi, .inr ho⟩
  · rintro a S _ ⟨_, h | h⟩
    · exact .inl h
    · refine .inr fun j hj => ⟨lists_none he j, fun t ht => ?_⟩
      simp only [hl, Option.some.injEq] at ht
      subst ht
      exact h j hj

/-- The same for a member that is there. -/
theorem lstF_req {n : Nat} {v : Int} {p : Place} {req : List String} {α β : Type} {k : String} {oe : Bool}
    {c : JCodec α} {F : JFields β} (s : Sch) (hl : p.members.lookup k = some s) (he : p.enums.lookup k = none)
    (h : LstC n v s c) (hk : k ∈ req) (hF : LstF n v p req F) : LstF n v p req (.field k oe c F) := by
  obtain ⟨I, iz, h⟩ := h
  refine lstF_cons (fun a S => I a ∧ (S → OutL v s c a)) ⟨iz, False.elim⟩ (fun _ _ _ hT hp => ⟨hp.1, hp.2 ∘ hT⟩) ?_ ?_ hF
  · intro t j old x S ht hj hs _ hi hd
    rw [hl, Option.some.injEq] at ht
    subst ht
    obtain ⟨hi, ho⟩ := h j old x hj hs hi.1 hd
    exact ⟨hi, fun _ => ho⟩
  · rintro a S hr ⟨_, h⟩
    refine .inr fun j hj => ⟨lists_none he j, fun t ht => ?_⟩
    simp only [hl, Option.some.injEq] at ht
    subst ht
    exact h (hr hk) j hj

/-- A field with an enumeration that is left out when its member has not been read. -/
theorem lstF_enum {n : Nat} {v : Int} {p : Place} {req : List String} {α β : Type} {k : String} {oe : Bool}
    {c : JCodec α} {F : JFields β} (s : Sch) (hl : p.members.lookup k = some s) (hp : s.plain = true) (h : Echo v s c)
    (hz : (oe && c.empty c.zero) = true) (hF : LstF n v p req F) : LstF n v p req (.field k oe c F) := by
  refine lstF_cons (fun a _ => (oe && c.empty a) = true ∨ ∀ j, c.enc a = some j → p.ListsValue v k j) (.inl hz)
    (fun _ _ _ _ => id) ?_ ?_ hF
  · intro t j old x S ht hj hs hv _ hd
    rw [hl, Option.some.injEq] at ht
    subst ht
    exact .inr fun j' hj' => h p k j old x j' hs.declared hd hj' hv
  · rintro a S _ (h | h)
    · exact .inl h
    · refine .inr fun j hj => ⟨h j hj, fun t ht => listed_plain ?_ j⟩
      simp only [hl, Option.some.injEq] at ht
      subst ht
      exact hp

/-- A field with an enumeration whose member is there. -/
theorem lstF_enumReq {n : Nat} {v : Int} {p : Place} {req : List String} {α β : Type} {k : String} {oe : Bool}
    {c : JCodec α} {F : JFields β} (s : Sch) (hl : p.members.lookup k = some s) (hp : s.plain = true) (h : Echo v s c)
    (hk : k ∈ req) (hF : LstF n v p req F) : LstF n v p req (.field k oe c F) := by
  refine lstF_cons (fun a S => S → ∀ j, c.enc a = some j → p.ListsValue v k j) False.elim
    (fun _ _ _ hT hp t => hp (hT t)) ?_ ?_ hF
  · intro t j old x S ht hj hs hv _ hd
    rw [hl, Option.some.injEq] at ht
    subst ht
    exact fun _ j' hj' => h p k j old x j' hs.declared hd hj' hv
  · intro a S hr h
    refine .inr fun j hj => ⟨h (hr hk) j hj, fun t ht => listed_plain ?_ j⟩
    simp only [hl, Option.some.injEq] at ht
    subst ht
    exact hp

theorem decMembers_lst {n : Nat} {v : Int} {p : Place} {lost names : List String} {β : Type} {F : JFields β}
    {K : β → (String → Prop) → Prop} (hF : F.names = names) (hnd : names.Nodup)
    (hn : (p.members.all fun m => fieldFor names m.1 = if m.1 ∈ lost then none else some m.1) = true)
    (kw : ∀ b S T, (∀ k ∈ F.names, T k → S k) → K b S → K b T)
    (ks : ∀ k s j b b' S, p.members.lookup k = some s → j.depth < n → Proper v s j → p.ListsValue v k j → F.names.Nodup →
      fieldFor F.names k = some k → K b S → F.set k j b = some b' → K b' fun x => S x ∨ x = k) :
    ∀ (ms : List (String × Json)) (b b' : β) (S : String → Prop),
      (∀ m ∈ ms, m.2.depth < n ∧ p.ListsValue v m.1 m.2 ∧ ∃ s, p.members.lookup m.1 = some s ∧ Proper v s m.2) → K b S →
      F.decMembers ms b = some b' → K b' fun x => S x ∨ ∃ m ∈ ms, m.1 = x
  | [], b, b', S, _, hk, hd => by
    simp only [JFields.decMembers, Option.some.injEq] at hd
    subst hd
    exact kw _ S _ (by simp) hk
  | m :: ms, b, b', S, hm, hk, hd => by
    rw [decMembers_cons] at hd
    cases he : F.set m.1 m.2 b with
    | none => simp [he] at hd
    | some c =>
      rw [he, Option.bind_some] at hd
      obtain ⟨hj, hv, s, hl, hs⟩ := hm m List.mem_cons_self
      have hc : K c fun x => S x ∨ x = m.1 := by
        rw [List.all_eq_true] at hn
        have hf := hn _ (lookup_mem hl)
        simp only [decide_eq_true_eq] at hf
        by_cases e : m.1 ∈ lost
        · rw [if_pos e] at hf
          rw [set_unknown F b (by rw [hF]; exact hf), Option.some.injEq] at he
          subst he
          refine kw _ S _ ?_ hk
          rintro k hk (h | rfl)
          · exact h
          · rw [hF] at hk
            simp only [fieldFor, List.find?_eq_none, decide_eq_true_eq] at hf
            exact absurd rfl (hf _ hk)
        · rw [if_neg e] at hf
          exact ks m.1 s m.2 b c S hl hj hs hv (hF ▸ hnd) (by rw [hF]; exact hf) hk he
      have := decMembers_lst hF hnd hn kw ks ms c b' _ (fun i hi => hm i (List.mem_cons_of_mem _ hi)) hc hd
      refine kw _ _ _ ?_ this
      rintro k _ (h | ⟨i, hi, rfl⟩)
      · exact .inl (.inl h)
      · cases hi with
        | head => exact .inl (.inr rfl)
        | tail _ hi => exact .inr ⟨i, hi, rfl⟩

/-- `lost` are the members without a field, `req` members that the documents have, `D` what else is known of them. -/
theorem lst_structD {n : Nat} {v : Int} {p : Place} {σ β : Type} {F : JFields β} {toP : σ → β} {ofP : β → σ}
    (D : List (String × Json) → Prop) (req lost names : List String) (hP : ∀ b, toP (ofP b) = b)
    (hr : ∀ ms, Proper v (.place p) (.obj ms) → D ms → ∀ k ∈ req, ∃ m ∈ ms, m.1 = k)
    (hF : F.names = names) (hnd : names.Nodup)
    (hn : (p.members.all fun m => fieldFor names m.1 = if m.1 ∈ lost then none else some m.1) = true)
    (h : LstF n v p req F) : ∃ I : σ → Prop, I (ofP F.zero) ∧ ∀ ms old x, Json.depthM ms < n →
      Proper v (.place p) (.obj ms) → D ms → I old → (JCodec.struct F toP ofP).dec (.obj ms) old = some x →
        I x ∧ OutL v (.place p) (JCodec.struct F toP ofP) x := by
  obtain ⟨K, kz, kw, ks, ko⟩ := h
  refine ⟨fun x => K (toP x) fun _ => False, by simp only [hP]; exact kz, ?_⟩
  intro ms old x hj hs hD hi hd
  simp only [JCodec.struct, Option.map_eq_some_iff] at hd
  obtain ⟨b, hd, rfl⟩ := hd
  have hk' := decMembers_lst hF hnd hn kw ks ms _ b _
    (fun m hm => ⟨by have := depth_member hm; omega, hs.member m hm⟩) hi hd
  refine ⟨?_, ?_⟩
  · show K (toP (ofP b)) _
    rw [hP]; exact kw _ _ _ (fun _ _ h => h.elim) hk'
  · intro j hj
    simp only [JCodec.struct, hP, Option.map_eq_some_iff] at hj
    obtain ⟨ms', hm, rfl⟩ := hj
    rw [listed_place]
    exact ko b _ ms' (fun k hk => .inr (hr ms hs hD k hk)) hk' hm

theorem lst_struct' {n : Nat} {v : Int} {p : Place} {σ β : Type} {F : JFields β} {toP : σ → β} {ofP : β → σ}
    (req lost names : List String) (hP : ∀ b, toP (ofP b) = b)
    (hr : ∀ ms, Proper v (.place p) (.obj ms) → ∀ k ∈ req, ∃ m ∈ ms, m.1 = k)
    (hF : F.names = names) (hnd : names.Nodup)
    (hn : (p.members.all fun m => fieldFor names m.1 = if m.1 ∈ lost then none else some m.1) = true)
    (h : LstF n v p req F) : LstC (n + 1) v (.place p) (JCodec.struct F toP ofP) := by
  obtain ⟨I, iz, h⟩ := lst_structD (fun _ => True) req lost names hP (fun ms h _ => hr ms h) hF hnd hn h
  refine ⟨I, iz, fun j old x hj hs hi hd => ?_⟩
  obtain ⟨ms, rfl⟩ := conforms_place_obj hs.declared
  have hj : Json.depthM ms + 1 < n + 1 := hj
  exact h ms old x (by omega) hs trivial hi hd

theorem lst_struct {n : Nat} {v : Int} {p : Place} {σ β : Type} {F : JFields β} {toP : σ → β} {ofP : β → σ}
    (req lost names : List String) (hP : ∀ b, toP (ofP b) = b)
    (hr : ∀ ms, Proper v (.place p) (.obj ms) → ∀ k ∈ req, ∃ m ∈ ms, m.1 = k)
    (hF : F.names = names) (hnd : names.Nodup)
    (hn : (p.members.all fun m => fieldFor names m.1 = if m.1 ∈ lost then none else some m.1) = true)
    (h : LstF n v p req F) : LstC n v (.place p) (JCodec.struct F toP ofP) :=
  (lst_struct' req lost names hP hr hF hnd hn h).mono (Nat.le_succ n)

theorem needs_req {v : Int} {p : Place} {req : List String} (h : ∀ has, p.Needs v has → ∀ k ∈ req, has k) :
    ∀ ms, Proper v (.place p) (.obj ms) → ∀ k ∈ req, ∃ m ∈ ms, m.1 = k :=
  fun _ hs => h _ (required_place.1 hs.required).1

/-- What is peeked at is not empty only if it is there. -/
theorem peek_there {v : Int} {p : Place} {ms : List (String × Json)} {k t : String}
    (hc : Conforms v (.place p) (.obj ms)) (hp : (p.members.all fun m => decide (foldKey m.1 = foldKey k → m.1 = k)) = true)
    (h : (J.peek k).dec (.obj ms) "" = some t) (ht : t ≠ "") : ∃ m ∈ ms, m.1 = k := by
  refine Classical.byContradiction fun hn => ht ?_
  rw [peek_obj, selected_undeclared hc (fun m hm e => hn ⟨m, hm, e⟩) hp] at h
  simp only [JCodec.decAll, Option.some.injEq] at h
  exact h.symm

theorem decAll_string_ne : ∀ (js : List Json) (s t : String), (∀ j ∈ js, ∃ u, u ≠ "" ∧ j = .str u) →
    (s ≠ "" ∨ js ≠ []) → JCodec.string.decAll js s = some t → t ≠ ""
  | [], s, t, _, h, hd => by
    simp only [JCodec.decAll, Option.some.injEq] at hd
    subst hd
    simpa using h
  | j :: js, s, t, hj, _, hd => by
    obtain ⟨u, hu, rfl⟩ := hj j List.mem_cons_self
    simp only [JCodec.decAll, JCodec.string] at hd
    exact decAll_string_ne js u t (fun i hi => hj i (List.mem_cons_of_mem _ hi)) (.inl hu) hd

end

variable [FloatIO]


theorem lst_advisory (n : Nat) (v : Int) : LstC n v (.place .advisory) J.advisory :=
  lst_struct [] []
    ["title", "url"] (fun _ => rfl) (by simp) rfl
    (by decide +kernel) (by decide +kernel) (
    lstF_free rfl rfl <|
    lstF_free rfl rfl <|
    lstF_nil)

theorem lst_affectedVersions (n : Nat) (v : Int) : LstC n v (.place .affectedVersions) J.affectedVersions :=
  lst_struct ["status"] []
    ["version", "range", "status"] (fun _ => rfl) (fun ms h => by
      simp only [List.mem_singleton, forall_eq]
      exact Classical.byContradiction fun hn => h.stated (.status fun m hm e => hn ⟨m, hm, e⟩)) rfl
    (by decide +kernel) (by decide +kernel) (
    lstF_free rfl rfl <|
    lstF_free rfl rfl <|
    lstF_enumReq .str rfl rfl (echo_string) (by simp) <|
    lstF_nil)

theorem lst_affects (n : Nat) (v : Int) : LstC n v (.place .vulnerabilityAffects) J.affects :=
  lst_struct [] []
    ["ref", "versions"] (fun _ => rfl) (by simp) rfl
    (by decide +kernel) (by decide +kernel) (
    lstF_free rfl rfl <|
    lstF_field (.list (.place .affectedVersions)) rfl rfl (lst_list (lst_affectedVersions n v)) (.inl rfl) <|
    lstF_nil)

theorem lst_attachedText (n : Nat) (v : Int) : LstC n v (.place .attachment) J.attachedText :=
  lst_struct [] []
    ["content", "contentType", "encoding"] (fun _ => rfl) (by simp) rfl
    (by decide +kernel) (by decide +kernel) (
    lstF_free rfl rfl <|
    lstF_free rfl rfl <|
    lstF_enum .str rfl rfl (echo_string) rfl <|
    lstF_nil)

theorem lst_property (n : Nat) (v : Int) : LstC n v (.place .property) J.property :=
  lst_struct [] []
    ["name", "value"] (fun _ => rfl) (by simp) rfl
    (by decide +kernel) (by decide +kernel) (
    lstF_free rfl rfl <|
    lstF_free rfl rfl <|
    lstF_nil)

theorem lst_componentDataContents (n : Nat) (v : Int) : LstC n v (.place .componentDataContents) J.componentDataContents :=
  lst_struct [] []
    ["attachment", "url", "properties"] (fun _ => rfl) (by simp) rfl
    (by decide +kernel) (by decide +kernel) (
    lstF_field (.place .attachment) rfl rfl (lst_option (lst_attachedText n v)) (.inl rfl) <|
    lstF_free rfl rfl <|
    lstF_field (.list (.place .property)) rfl rfl (lst_list (lst_property n v)) (.inl rfl) <|
    lstF_nil)

theorem lst_componentDataGraphic (n : Nat) (v : Int) : LstC n v (.place .graphic) J.componentDataGraphic :=
  lst_struct [] []
    ["name", "image"] (fun _ => rfl) (by simp) rfl
    (by decide +kernel) (by decide +kernel) (
    lstF_free rfl rfl <|
    lstF_field (.place .attachment) rfl rfl (lst_option (lst_attachedText n v)) (.inl rfl) <|
    lstF_nil)

theorem lst_componentDataGraphics (n : Nat) (v : Int) : LstC n v (.place .graphicsCollection) J.componentDataGraphics :=
  lst_struct [] []
    ["description", "collection"] (fun _ => rfl) (by simp) rfl
    (by decide +kernel) (by decide +kernel) (
    lstF_free rfl rfl <|
    lstF_field (.list (.place .graphic)) rfl rfl (lst_list (lst_componentDataGraphic n v)) (.inl rfl) <|
    lstF_nil)

theorem lst_organizationalContact (n : Nat) (v : Int) : LstC n v (.place .organizationalContact) J.organizationalContact :=
  lst_struct [] []
    ["bom-ref", "name", "email", "phone"] (fun _ => rfl) (by simp) rfl
    (by decide +kernel) (by decide +kernel) (
    lstF_free rfl rfl <|
    lstF_free rfl rfl <|
    lstF_free rfl rfl <|
    lstF_free rfl rfl <|
    lstF_nil)

theorem lst_postalAddress (n : Nat) (v : Int) : LstC n v (.place .postalAddress) J.postalAddress :=
  lst_struct [] []
    ["bom-ref", "country", "region", "locality", "postOfficeBoxNumber", "postalCode", "streetAddress"] (fun _ => rfl) (by simp) rfl
    (by decide +kernel) (by decide +kernel) (
    lstF_free rfl rfl <|
    lstF_free rfl rfl <|
    lstF_free rfl rfl <|
    lstF_free rfl rfl <|
    lstF_free rfl rfl <|
    lstF_free rfl rfl <|
    lstF_free rfl rfl <|
    lstF_nil)

theorem lst_organizationalEntity (n : Nat) (v : Int) : LstC n v (.place .organizationalEntity) J.organizationalEntity :=
  lst_struct [] []
    ["bom-ref", "name", "address", "url", "contact"] (fun _ => rfl) (by simp) rfl
    (by decide +kernel) (by decide +kernel) (
    lstF_free rfl rfl <|
    lstF_free rfl rfl <|
    lstF_field (.since SpecVersion1_6 (.place .postalAddress)) rfl rfl (lst_since (lst_option (lst_postalAddress n v))) (.inl rfl) <|
    lstF_free rfl rfl <|
    lstF_field (.list (.place .organizationalContact)) rfl rfl (lst_list (lst_organizationalContact n v)) (.inl rfl) <|
    lstF_nil)

theorem lst_componentDataGovernanceResponsibleParty (n : Nat) (v : Int) : LstC n v (.place .dataGovernanceResponsibleParty) J.componentDataGovernanceResponsibleParty :=
  lst_struct [] []
    ["organization", "contact"] (fun _ => rfl) (by simp) rfl
    (by decide +kernel) (by decide +kernel) (
    lstF_field (.place .organizationalEntity) rfl rfl (lst_option (lst_organizationalEntity n v)) (.inl rfl) <|
    lstF_field (.place .organizationalContact) rfl rfl (lst_option (lst_organizationalContact n v)) (.inl rfl) <|
    lstF_nil)

theorem lst_dataGovernance (n : Nat) (v : Int) : LstC n v (.place .dataGovernance) J.dataGovernance :=
  lst_struct [] []
    ["custodians", "stewards", "owners"] (fun _ => rfl) (by simp) rfl
    (by decide +kernel) (by decide +kernel) (
    lstF_field (.list (.place .dataGovernanceResponsibleParty)) rfl rfl (lst_list (lst_componentDataGovernanceResponsibleParty n v)) (.inl rfl) <|
    lstF_field (.list (.place .dataGovernanceResponsibleParty)) rfl rfl (lst_list (lst_componentDataGovernanceResponsibleParty n v)) (.inl rfl) <|
    lstF_field (.list (.place .dataGovernanceResponsibleParty)) rfl rfl (lst_list (lst_componentDataGovernanceResponsibleParty n v)) (.inl rfl) <|
    lstF_nil)

theorem lst_componentData (n : Nat) (v : Int) : LstC n v (.place .componentData) J.componentData :=
  lst_struct [] []
    ["bom-ref", "type", "name", "contents", "classification", "sensitiveData", "graphics", "description", "governance"] (fun _ => rfl) (by simp) rfl
    (by decide +kernel) (by decide +kernel) (
    lstF_free rfl rfl <|
    lstF_enum .str rfl rfl (echo_string) rfl <|
    lstF_free rfl rfl <|
    lstF_field (.place .componentDataContents) rfl rfl (lst_option (lst_componentDataContents n v)) (.inl rfl) <|
    lstF_free rfl rfl <|
    lstF_free rfl rfl <|
    lstF_field (.place .graphicsCollection) rfl rfl (lst_option (lst_componentDataGraphics n v)) (.inl rfl) <|
    lstF_free rfl rfl <|
    lstF_field (.place .dataGovernance) rfl rfl (lst_option (lst_dataGovernance n v)) (.inl rfl) <|
    lstF_nil)

theorem lst_componentData_modelDataset (n : Nat) (v : Int) : LstC n v (.place .modelDataset) J.componentData :=
  lst_struct [] ["ref"]
    ["bom-ref", "type", "name", "contents", "classification", "sensitiveData", "graphics", "description", "governance"] (fun _ => rfl) (by simp) rfl
    (by decide +kernel) (by decide +kernel) (
    lstF_free rfl rfl <|
    lstF_enum .str rfl rfl (echo_string) rfl <|
    lstF_free rfl rfl <|
    lstF_field (.place .componentDataContents) rfl rfl (lst_option (lst_componentDataContents n v)) (.inl rfl) <|
    lstF_free rfl rfl <|
    lstF_free rfl rfl <|
    lstF_field (.place .graphicsCollection) rfl rfl (lst_option (lst_componentDataGraphics n v)) (.inl rfl) <|
    lstF_free rfl rfl <|
    lstF_field (.place .dataGovernance) rfl rfl (lst_option (lst_dataGovernance n v)) (.inl rfl) <|
    lstF_nil)

theorem lst_hash (n : Nat) (v : Int) : LstC n v (.place .hash) J.hash :=
  lst_struct ["alg"] []
    ["alg", "content"] (fun _ => rfl) (needs_req fun has h => by
      simp only [Place.Needs] at h
      simp only [List.mem_cons, List.not_mem_nil, or_false, forall_eq_or_imp, forall_eq]
      grind) rfl
    (by decide +kernel) (by decide +kernel) (
    lstF_enumReq .str rfl rfl (echo_string) (by simp) <|
    lstF_free rfl rfl <|
    lstF_nil)

theorem lst_relatedCryptographicAsset (n : Nat) (v : Int) : LstC n v (.place .relatedCryptographicAsset) J.relatedCryptographicAsset :=
  lst_struct [] []
    ["type", "ref"] (fun _ => rfl) (by simp) rfl
    (by decide +kernel) (by decide +kernel) (
    lstF_free rfl rfl <|
    lstF_free rfl rfl <|
    lstF_nil)



theorem lst_certificateState (n : Nat) (v : Int) : LstC n v (.place .certificateState) J.certificateState := by
  obtain ⟨I, hz, h⟩ := lst_structD (n := n) (v := v) (p := .certificateState) (F := J.predefinedCertificateStateFields)
    (toP := PredefinedCertificateState.toP) (ofP := PredefinedCertificateState.ofP)
    (fun ms => ∃ m ∈ ms, m.1 = "state") ["state"] ["name", "description"] ["state", "reason"] (fun _ => rfl)
    (fun ms _ hD k hk => by simp only [List.mem_singleton] at hk; subst hk; exact hD)
    rfl (by decide +kernel) (by decide +kernel)
    (lstF_enumReq .str rfl rfl echo_string (by simp) <| lstF_free rfl rfl lstF_nil)
  let A : CertificateState → Prop := fun x =>
    ∀ y ∈ x.predefined, OutL v (.place .certificateState) J.predefinedCertificateState y
  refine ⟨A, (by intro y hy; cases hy), fun j old x hj hs hi hd => ?_⟩
  obtain ⟨ms, rfl⟩ := conforms_place_obj hs.declared
  have hj : Json.depthM ms + 1 < n := hj
  suffices h : A x by
    refine ⟨h, fun i hi => ?_⟩
    obtain ⟨a, b⟩ := x
    cases a <;> cases b <;> simp only [J.certificateState] at hi
    · simp only [Option.some.injEq] at hi
      subst hi
      simp [listed_place]
    · exact outL_of_enum (enum_customCertificateState v _) i hi
    · exact h _ rfl i hi
    · cases hi
  simp only [J.certificateState] at hd
  cases hp : (J.peek "state").dec (.obj ms) "" with
  | none => rw [hp] at hd; cases hd
  | some s =>
    simp only [hp] at hd
    split at hd
    · rename_i hne
      split at hd
      · cases hd
      · rename_i y he
        simp only [Option.some.injEq] at hd
        subst hd
        intro z hz'
        cases hz'
        exact (h ms _ y (by omega) hs (peek_there hs.declared (by decide +kernel) hp hne) hz he).2
    · split at hd
      · cases hd
      · simp only [Option.some.injEq] at hd
        subst hd
        exact hi




theorem lst_certificateExtension (n : Nat) (v : Int) : LstC n v (.place .certificateExtension) J.certificateExtension := by
  obtain ⟨I, hz, h⟩ := lst_structD (n := n) (v := v) (p := .certificateExtension) (F := J.commonCertificateExtensionFields)
    (toP := CommonCertificateExtension.toP) (ofP := CommonCertificateExtension.ofP)
    (fun ms => ∃ m ∈ ms, m.1 = "commonExtensionName") ["commonExtensionName"] ["customExtensionName", "customExtensionValue"] ["commonExtensionName", "commonExtensionValue"] (fun _ => rfl)
    (fun ms _ hD k hk => by simp only [List.mem_singleton] at hk; subst hk; exact hD)
    rfl (by decide +kernel) (by decide +kernel)
    (lstF_enumReq .str rfl rfl echo_string (by simp) <| lstF_free rfl rfl lstF_nil)
  let A : CertificateExtension → Prop := fun x =>
    ∀ y ∈ x.common, OutL v (.place .certificateExtension) J.commonCertificateExtension y
  refine ⟨A, (by intro y hy; cases hy), fun j old x hj hs hi hd => ?_⟩
  obtain ⟨ms, rfl⟩ := conforms_place_obj hs.declared
  have hj : Json.depthM ms + 1 < n := hj
  suffices h : A x by
    refine ⟨h, fun i hi => ?_⟩
    obtain ⟨a, b⟩ := x
    cases a <;> cases b <;> simp only [J.certificateExtension] at hi
    · simp only [Option.some.injEq] at hi
      subst hi
      simp [listed_place]
    · exact outL_of_enum (enum_customCertificateExtension v _) i hi
    · exact h _ rfl i hi
    · cases hi
  simp only [J.certificateExtension] at hd
  cases hp : (J.peek "commonExtensionName").dec (.obj ms) "" with
  | none => rw [hp] at hd; cases hd
  | some s =>
    simp only [hp] at hd
    split at hd
    · rename_i hne
      split at hd
      · cases hd
      · rename_i y he
        simp only [Option.some.injEq] at hd
        subst hd
        intro z hz'
        cases hz'
        exact (h ms _ y (by omega) hs (peek_there hs.declared (by decide +kernel) hp hne) hz he).2
    · split at hd
      · cases hd
      · simp only [Option.some.injEq] at hd
        subst hd
        exact hi


theorem lst_certificateProperties (n : Nat) (v : Int) : LstC n v (.place .certificateProperties) J.certificateProperties :=
  lst_struct [] []
    ["serialNumber", "subjectName", "issuerName", "notValidBefore", "notValidAfter", "signatureAlgorithmRef", "subjectPublicKeyRef", "certificateFormat", "certificateExtension", "certificateFileExtension", "fingerprint", "certificateState", "certificateExtensions", "relatedCryptographicAssets", "creationDate", "activationDate", "deactivationDate", "revocationDate", "destructionDate"] (fun _ => rfl) (by simp) rfl
    (by decide +kernel) (by decide +kernel) (
    lstF_free rfl rfl <|
    lstF_free rfl rfl <|
    lstF_free rfl rfl <|
    lstF_free rfl rfl <|
    lstF_free rfl rfl <|
    lstF_free rfl rfl <|
    lstF_free rfl rfl <|
    lstF_free rfl rfl <|
    lstF_free rfl rfl <|
    lstF_free rfl rfl <|
    lstF_field (.since SpecVersion1_7 (.place .hash)) rfl rfl (lst_since (lst_option (lst_hash n v))) (.inl rfl) <|
    lstF_field (.since SpecVersion1_7 (.list (.place .certificateState))) rfl rfl (lst_since (lst_list (lst_certificateState n v))) (.inl rfl) <|
    lstF_field (.since SpecVersion1_7 (.list (.place .certificateExtension))) rfl rfl (lst_since (lst_list (lst_certificateExtension n v))) (.inl rfl) <|
    lstF_field (.since SpecVersion1_7 (.list (.place .relatedCryptographicAsset))) rfl rfl (lst_since (lst_list (lst_relatedCryptographicAsset n v))) (.inl rfl) <|
    lstF_free rfl rfl <|
    lstF_free rfl rfl <|
    lstF_free rfl rfl <|
    lstF_free rfl rfl <|
    lstF_free rfl rfl <|
    lstF_nil)

theorem lst_cryptoAlgorithmProperties (n : Nat) (v : Int) : LstC n v (.place .algorithmProperties) J.cryptoAlgorithmProperties :=
  lst_struct [] []
    ["primitive", "parameterSetIdentifier", "algorithmFamily", "curve", "ellipticCurve", "executionEnvironment", "implementationPlatform", "certificationLevel", "mode", "padding", "cryptoFunctions", "classicalSecurityLevel", "nistQuantumSecurityLevel"] (fun _ => rfl) (by simp) rfl
    (by decide +kernel) (by decide +kernel) (
    lstF_enum .str rfl rfl (echo_string) rfl <|
    lstF_free rfl rfl <|
    lstF_free rfl rfl <|
    lstF_free rfl rfl <|
    lstF_free rfl rfl <|
    lstF_enum .str rfl rfl (echo_string) rfl <|
    lstF_enum .str rfl rfl (echo_string) rfl <|
    lstF_enum (.list .str) rfl rfl (echo_list) rfl <|
    lstF_enum .str rfl rfl (echo_string) rfl <|
    lstF_enum .str rfl rfl (echo_string) rfl <|
    lstF_enum (.list .str) rfl rfl (echo_list) rfl <|
    lstF_free rfl rfl <|
    lstF_free rfl rfl <|
    lstF_nil)

theorem lst_cipherSuite (n : Nat) (v : Int) : LstC n v (.place .cipherSuite) J.cipherSuite :=
  lst_struct [] []
    ["name", "algorithms", "identifiers", "tlsGroups", "tlsSignatureSchemes"] (fun _ => rfl) (by simp) rfl
    (by decide +kernel) (by decide +kernel) (
    lstF_free rfl rfl <|
    lstF_free rfl rfl <|
    lstF_free rfl rfl <|
    lstF_free rfl rfl <|
    lstF_free rfl rfl <|
    lstF_nil)

theorem lst_ikev2Auth (n : Nat) (v : Int) : LstC n v (.alt .str (.since SpecVersion1_7 (.place .ikeV2Auth))) J.ikev2Auth :=
  lst_of_enum (enum_ikev2Auth v)

theorem lst_ikev2Enc (n : Nat) (v : Int) : LstC n v (.alt .str (.since SpecVersion1_7 (.place .ikeV2Enc))) J.ikev2Enc :=
  lst_of_enum (enum_ikev2Enc v)

theorem lst_ikev2Integ (n : Nat) (v : Int) : LstC n v (.alt .str (.since SpecVersion1_7 (.place .ikeV2Integ))) J.ikev2Integ :=
  lst_of_enum (enum_ikev2Integ v)

theorem lst_ikev2Ke (n : Nat) (v : Int) : LstC n v (.alt .str (.since SpecVersion1_7 (.place .ikeV2Ke))) J.ikev2Ke :=
  lst_of_enum (enum_ikev2Ke v)

theorem lst_ikev2Prf (n : Nat) (v : Int) : LstC n v (.alt .str (.since SpecVersion1_7 (.place .ikeV2Prf))) J.ikev2Prf :=
  lst_of_enum (enum_ikev2Prf v)

theorem lst_ikev2TransformTypes (n : Nat) (v : Int) : LstC n v (.place .ikev2TransformTypes) J.ikev2TransformTypes :=
  lst_struct [] []
    ["encr", "prf", "integ", "ke", "esn", "auth"] (fun _ => rfl) (by simp) rfl
    (by decide +kernel) (by decide +kernel) (
    lstF_field (.list (.alt .str (.since SpecVersion1_7 (.place .ikeV2Enc)))) rfl rfl (lst_list (lst_ikev2Enc n v)) (.inl rfl) <|
    lstF_field (.list (.alt .str (.since SpecVersion1_7 (.place .ikeV2Prf)))) rfl rfl (lst_list (lst_ikev2Prf n v)) (.inl rfl) <|
    lstF_field (.list (.alt .str (.since SpecVersion1_7 (.place .ikeV2Integ)))) rfl rfl (lst_list (lst_ikev2Integ n v)) (.inl rfl) <|
    lstF_field (.list (.alt .str (.since SpecVersion1_7 (.place .ikeV2Ke)))) rfl rfl (lst_list (lst_ikev2Ke n v)) (.inl rfl) <|
    lstF_free rfl rfl <|
    lstF_field (.list (.alt .str (.since SpecVersion1_7 (.place .ikeV2Auth)))) rfl rfl (lst_list (lst_ikev2Auth n v)) (.inl rfl) <|
    lstF_nil)

theorem lst_cryptoProtocolProperties (n : Nat) (v : Int) : LstC n v (.place .protocolProperties) J.cryptoProtocolProperties :=
  lst_struct [] []
    ["type", "version", "cipherSuites", "ikev2TransformTypes", "cryptoRefArray", "relatedCryptographicAssets"] (fun _ => rfl) (by simp) rfl
    (by decide +kernel) (by decide +kernel) (
    lstF_enum .str rfl rfl (echo_string) rfl <|
    lstF_free rfl rfl <|
    lstF_field (.list (.place .cipherSuite)) rfl rfl (lst_list (lst_cipherSuite n v)) (.inl rfl) <|
    lstF_field (.place .ikev2TransformTypes) rfl rfl (lst_option (lst_ikev2TransformTypes n v)) (.inl rfl) <|
    lstF_free rfl rfl <|
    lstF_field (.since SpecVersion1_7 (.list (.place .relatedCryptographicAsset))) rfl rfl (lst_since (lst_list (lst_relatedCryptographicAsset n v))) (.inl rfl) <|
    lstF_nil)

theorem lst_securedBy (n : Nat) (v : Int) : LstC n v (.place .securedBy) J.securedBy :=
  lst_struct [] []
    ["mechanism", "algorithmRef"] (fun _ => rfl) (by simp) rfl
    (by decide +kernel) (by decide +kernel) (
    lstF_free rfl rfl <|
    lstF_free rfl rfl <|
    lstF_nil)

theorem lst_relatedCryptoMaterialProperties (n : Nat) (v : Int) : LstC n v (.place .relatedCryptoMaterialProperties) J.relatedCryptoMaterialProperties :=
  lst_struct [] []
    ["type", "id", "state", "algorithmRef", "creationDate", "activationDate", "updateDate", "expirationDate", "value", "size", "format", "securedBy", "fingerprint", "relatedCryptographicAssets"] (fun _ => rfl) (by simp) rfl
    (by decide +kernel) (by decide +kernel) (
    lstF_enum .str rfl rfl (echo_string) rfl <|
    lstF_free rfl rfl <|
    lstF_enum .str rfl rfl (echo_string) rfl <|
    lstF_free rfl rfl <|
    lstF_free rfl rfl <|
    lstF_free rfl rfl <|
    lstF_free rfl rfl <|
    lstF_free rfl rfl <|
    lstF_free rfl rfl <|
    lstF_free rfl rfl <|
    lstF_free rfl rfl <|
    lstF_field (.place .securedBy) rfl rfl (lst_option (lst_securedBy n v)) (.inl rfl) <|
    lstF_field (.since SpecVersion1_7 (.place .hash)) rfl rfl (lst_since (lst_option (lst_hash n v))) (.inl rfl) <|
    lstF_field (.since SpecVersion1_7 (.list (.place .relatedCryptographicAsset))) rfl rfl (lst_since (lst_list (lst_relatedCryptographicAsset n v))) (.inl rfl) <|
    lstF_nil)

theorem lst_cryptoProperties (n : Nat) (v : Int) : LstC n v (.place .cryptoProperties) J.cryptoProperties :=
  lst_struct ["assetType"] []
    ["assetType", "algorithmProperties", "certificateProperties", "relatedCryptoMaterialProperties", "protocolProperties", "oid"] (fun _ => rfl) (needs_req fun has h => by
      simp only [Place.Needs] at h
      simp only [List.mem_cons, List.not_mem_nil, or_false, forall_eq_or_imp, forall_eq]
      grind) rfl
    (by decide +kernel) (by decide +kernel) (
    lstF_enumReq .str rfl rfl (echo_string) (by simp) <|
    lstF_field (.place .algorithmProperties) rfl rfl (lst_option (lst_cryptoAlgorithmProperties n v)) (.inl rfl) <|
    lstF_field (.place .certificateProperties) rfl rfl (lst_option (lst_certificateProperties n v)) (.inl rfl) <|
    lstF_field (.place .relatedCryptoMaterialProperties) rfl rfl (lst_option (lst_relatedCryptoMaterialProperties n v)) (.inl rfl) <|
    lstF_field (.place .protocolProperties) rfl rfl (lst_option (lst_cryptoProtocolProperties n v)) (.inl rfl) <|
    lstF_free rfl rfl <|
    lstF_nil)

theorem lst_callstackFrame (n : Nat) (v : Int) : LstC n v (.place .componentEvidenceCallstackFrames) J.callstackFrame :=
  lst_struct [] []
    ["package", "module", "function", "parameters", "line", "column", "fullFilename"] (fun _ => rfl) (by simp) rfl
    (by decide +kernel) (by decide +kernel) (
    lstF_free rfl rfl <|
    lstF_free rfl rfl <|
    lstF_free rfl rfl <|
    lstF_free rfl rfl <|
    lstF_free rfl rfl <|
    lstF_free rfl rfl <|
    lstF_free rfl rfl <|
    lstF_nil)

theorem lst_callstack (n : Nat) (v : Int) : LstC n v (.place .componentEvidenceCallstack) J.callstack :=
  lst_struct [] []
    ["frames"] (fun _ => rfl) (by simp) rfl
    (by decide +kernel) (by decide +kernel) (
    lstF_field (.list (.place .componentEvidenceCallstackFrames)) rfl rfl (lst_list (lst_callstackFrame n v)) (.inl rfl) <|
    lstF_nil)

theorem lst_copyright (n : Nat) (v : Int) : LstC n v (.place .copyright) J.copyright :=
  lst_struct [] []
    ["text"] (fun _ => rfl) (by simp) rfl
    (by decide +kernel) (by decide +kernel) (
    lstF_free rfl rfl <|
    lstF_nil)

theorem lst_evidenceIdentityMethod (n : Nat) (v : Int) : LstC n v (.place .componentIdentityEvidenceMethods) J.evidenceIdentityMethod :=
  lst_struct [] []
    ["technique", "confidence", "value"] (fun _ => rfl) (by simp) rfl
    (by decide +kernel) (by decide +kernel) (
    lstF_enum .str rfl rfl (echo_string) rfl <|
    lstF_free rfl rfl <|
    lstF_free rfl rfl <|
    lstF_nil)

theorem lst_evidenceIdentity (n : Nat) (v : Int) : LstC n v (.place .componentIdentityEvidence) J.evidenceIdentity :=
  lst_struct [] []
    ["field", "confidence", "concludedValue", "methods", "tools"] (fun _ => rfl) (by simp) rfl
    (by decide +kernel) (by decide +kernel) (
    lstF_enum .str rfl rfl (echo_string) rfl <|
    lstF_free rfl rfl <|
    lstF_free rfl rfl <|
    lstF_field (.list (.place .componentIdentityEvidenceMethods)) rfl rfl (lst_list (lst_evidenceIdentityMethod n v)) (.inl rfl) <|
    lstF_free rfl rfl <|
    lstF_nil)

theorem lst_evidenceIdentityChoice (n : Nat) (v : Int) : LstC n v (.alt (.since SpecVersion1_6 (.list (.place .componentIdentityEvidence))) (.place .componentIdentityEvidence)) J.evidenceIdentityChoice := by
  obtain ⟨I, hz, h⟩ := lst_evidenceIdentity n v
  obtain ⟨L, lz, hl⟩ := lst_list (lst_evidenceIdentity n v)
  let A : PSlice EvidenceIdentity → Prop := fun p =>
    OutL v (.list (.place .componentIdentityEvidence)) (JCodec.pslice J.evidenceIdentity) p
  let B : Option EvidenceIdentity → Prop := fun o =>
    ∀ i ∈ o, OutL v (.place .componentIdentityEvidence) J.evidenceIdentity i
  have key : ∀ o p, A p → B o → OutL v (.alt (.since SpecVersion1_6 (.list (.place .componentIdentityEvidence))) (.place .componentIdentityEvidence)) J.evidenceIdentityChoice ⟨o, p⟩ := by
    intro o p ha hb j hj
    simp only [J.evidenceIdentityChoice] at hj
    rw [listed_alt, listed_since]
    cases o with
    | some i =>
      simp only at hj
      split at hj
      · cases hj
      · have := hb i rfl j hj
        obtain ⟨ms, rfl⟩ := struct_is_obj hj
        exact ⟨listed_list_obj, this⟩
    | none =>
      simp only at hj
      split at hj
      · refine ⟨ha j hj, ?_⟩
        cases p with
        | list xs =>
          simp only [JCodec.pslice, Option.map_eq_some_iff] at hj
          obtain ⟨js, _, rfl⟩ := hj; exact listed_place_arr
        | _ =>
          simp only [JCodec.pslice, Option.some.injEq] at hj
          subst hj; exact listed_null _
      · simp only [Option.some.injEq] at hj
        subst hj
        exact ⟨listed_null _, listed_null _⟩
  have nil : A .nil := by
    intro j hj
    simp only [JCodec.pslice, Option.some.injEq] at hj
    subst hj
    exact listed_null _
  refine ⟨fun c => A c.identities ∧ B c.identity, ⟨nil, by intro i hi; cases hi⟩, ?_⟩
  rintro j ⟨o, p⟩ x hj hs ⟨ha, hb⟩ hd
  rcases hs.alt with hs | hs
  · have hs := hs.since
    obtain ⟨js, rfl⟩ := conforms_list_arr hs.declared
    simp only [J.evidenceIdentityChoice] at hd
    cases he : (JCodec.pslice J.evidenceIdentity).dec (.arr js) .nil with
    | none => rw [he] at hd; cases hd
    | some ids =>
      simp only [he, Option.some.injEq] at hd
      subst hd
      have h1 : A ids := (hl _ _ _ hj hs lz he).2
      exact ⟨⟨h1, hb⟩, key _ _ h1 hb⟩
  · obtain ⟨ms, rfl⟩ := conforms_place_obj hs.declared
    simp only [J.evidenceIdentityChoice] at hd
    cases he : J.evidenceIdentity.dec (.obj ms) {} with
    | none => rw [he] at hd; cases hd
    | some i =>
      simp only [he, Option.some.injEq] at hd
      subst hd
      have h1 : B (some i) := fun y hy => by cases hy; exact (h _ _ _ hj hs hz he).2
      exact ⟨⟨ha, h1⟩, key _ _ ha h1⟩


theorem lst_evidenceOccurrence (n : Nat) (v : Int) : LstC n v (.place .componentEvidenceOccurrences) J.evidenceOccurrence :=
  lst_struct [] []
    ["bom-ref", "location", "line", "offset", "symbol", "additionalContext"] (fun _ => rfl) (by simp) rfl
    (by decide +kernel) (by decide +kernel) (
    lstF_free rfl rfl <|
    lstF_free rfl rfl <|
    lstF_free rfl rfl <|
    lstF_free rfl rfl <|
    lstF_free rfl rfl <|
    lstF_free rfl rfl <|
    lstF_nil)

theorem lst_organizationalEntityOrContact (n : Nat) (v : Int) : LstC n v (.place .organizationOrIndividual) J.organizationalEntityOrContact :=
  lst_struct [] []
    ["organization", "individual"] (fun _ => rfl) (by simp) rfl
    (by decide +kernel) (by decide +kernel) (
    lstF_field (.place .organizationalEntity) rfl rfl (lst_option (lst_organizationalEntity n v)) (.inl rfl) <|
    lstF_field (.place .organizationalContact) rfl rfl (lst_option (lst_organizationalContact n v)) (.inl rfl) <|
    lstF_nil)

theorem lst_organizationalEntityOrContact_patentAssignee (n : Nat) (v : Int) : LstC n v (.place .patentAssignee) J.organizationalEntityOrContact :=
  lst_struct [] ["bom-ref", "name", "email", "phone", "address", "url", "contact"]
    ["organization", "individual"] (fun _ => rfl) (by simp) rfl
    (by decide +kernel) (by decide +kernel) (
    lstF_free rfl rfl <|
    lstF_free rfl rfl <|
    lstF_nil)

theorem lst_licensing (n : Nat) (v : Int) : LstC n v (.place .licensing) J.licensing :=
  lst_struct [] []
    ["altIds", "licensor", "licensee", "purchaser", "purchaseOrder", "licenseTypes", "lastRenewal", "expiration"] (fun _ => rfl) (by simp) rfl
    (by decide +kernel) (by decide +kernel) (
    lstF_free rfl rfl <|
    lstF_field (.place .organizationOrIndividual) rfl rfl (lst_option (lst_organizationalEntityOrContact n v)) (.inl rfl) <|
    lstF_field (.place .organizationOrIndividual) rfl rfl (lst_option (lst_organizationalEntityOrContact n v)) (.inl rfl) <|
    lstF_field (.place .organizationOrIndividual) rfl rfl (lst_option (lst_organizationalEntityOrContact n v)) (.inl rfl) <|
    lstF_free rfl rfl <|
    lstF_enum (.list .str) rfl rfl (echo_list) rfl <|
    lstF_free rfl rfl <|
    lstF_free rfl rfl <|
    lstF_nil)

theorem lst_license (n : Nat) (v : Int) : LstC n v (.place .license) J.license := by
  have h : LstC n v (.place .license) J.licenseAlias :=
    lst_struct [] []
    ["bom-ref", "id", "name", "acknowledgement", "text", "url", "licensing", "properties"] (fun _ => rfl) (by simp) rfl
    (by decide +kernel) (by decide +kernel) (
    lstF_free rfl rfl <|
    lstF_free rfl rfl <|
    lstF_free rfl rfl <|
    lstF_enum (.since SpecVersion1_6 .str) rfl rfl (echo_since (echo_string)) rfl <|
    lstF_field (.place .attachment) rfl rfl (lst_option (lst_attachedText n v)) (.inl rfl) <|
    lstF_free rfl rfl <|
    lstF_field (.since SpecVersion1_5 (.place .licensing)) rfl rfl (lst_since (lst_option (lst_licensing n v))) (.inl rfl) <|
    lstF_field (.since SpecVersion1_5 (.list (.place .property))) rfl rfl (lst_since (lst_list (lst_property n v))) (.inl rfl) <|
    lstF_nil)
  obtain ⟨I, hz, h⟩ := h
  refine ⟨I, hz, fun j old x hj hs hi hd => ?_⟩
  obtain ⟨hi, ho⟩ := h j old x hj hs hi hd
  refine ⟨hi, fun i hj => ho i ?_⟩
  simp only [J.license] at hj
  split at hj
  · cases hj
  · split at hj
    · cases hj
    · exact hj


theorem lst_licenseExpressionDetail (n : Nat) (v : Int) : LstC n v (.place .expressionDetail) J.licenseExpressionDetail :=
  lst_struct [] []
    ["licenseIdentifier", "bom-ref", "text", "url"] (fun _ => rfl) (by simp) rfl
    (by decide +kernel) (by decide +kernel) (
    lstF_free rfl rfl <|
    lstF_free rfl rfl <|
    lstF_field (.place .attachment) rfl rfl (lst_option (lst_attachedText n v)) (.inl rfl) <|
    lstF_free rfl rfl <|
    lstF_nil)

theorem lst_licenseChoice (n : Nat) (v : Int) : LstC n v (.place .licenseChoice) J.licenseChoice :=
  lst_struct [] []
    ["license", "expression", "expressionDetails", "acknowledgement", "bom-ref", "licensing", "properties"] (fun _ => rfl) (by simp) rfl
    (by decide +kernel) (by decide +kernel) (
    lstF_field (.place .license) rfl rfl (lst_option (lst_license n v)) (.inl rfl) <|
    lstF_free rfl rfl <|
    lstF_field (.since SpecVersion1_7 (.list (.place .expressionDetail))) rfl rfl (lst_since (lst_list (lst_licenseExpressionDetail n v))) (.inl rfl) <|
    lstF_enum (.since SpecVersion1_6 .str) rfl rfl (echo_since (echo_option (echo_string))) rfl <|
    lstF_free rfl rfl <|
    lstF_field (.since SpecVersion1_7 (.place .licensing)) rfl rfl (lst_since (lst_option (lst_licensing n v))) (.inl rfl) <|
    lstF_field (.since SpecVersion1_7 (.list (.place .property))) rfl rfl (lst_since (lst_list (lst_property n v))) (.inl rfl) <|
    lstF_nil)

theorem lst_evidence (n : Nat) (v : Int) : LstC n v (.place .componentEvidence) J.evidence :=
  lst_struct [] []
    ["identity", "occurrences", "callstack", "licenses", "copyright"] (fun _ => rfl) (by simp) rfl
    (by decide +kernel) (by decide +kernel) (
    lstF_field (.since SpecVersion1_5 (.alt (.since SpecVersion1_6 (.list (.place .componentIdentityEvidence))) (.place .componentIdentityEvidence))) rfl rfl (lst_since (lst_option (lst_evidenceIdentityChoice n v))) (.inl rfl) <|
    lstF_field (.since SpecVersion1_5 (.list (.place .componentEvidenceOccurrences))) rfl rfl (lst_since (lst_list (lst_evidenceOccurrence n v))) (.inl rfl) <|
    lstF_field (.since SpecVersion1_5 (.place .componentEvidenceCallstack)) rfl rfl (lst_since (lst_option (lst_callstack n v))) (.inl rfl) <|
    lstF_field (.list (.place .licenseChoice)) rfl rfl (lst_list (lst_licenseChoice n v)) (.inl rfl) <|
    lstF_field (.list (.place .copyright)) rfl rfl (lst_list (lst_copyright n v)) (.inl rfl) <|
    lstF_nil)

theorem lst_externalReference (n : Nat) (v : Int) : LstC n v (.place .externalReference) J.externalReference :=
  lst_struct ["type"] []
    ["url", "comment", "hashes", "type", "properties"] (fun _ => rfl) (needs_req fun has h => by
      simp only [Place.Needs] at h
      simp only [List.mem_cons, List.not_mem_nil, or_false, forall_eq_or_imp, forall_eq]
      grind) rfl
    (by decide +kernel) (by decide +kernel) (
    lstF_free rfl rfl <|
    lstF_free rfl rfl <|
    lstF_field (.since SpecVersion1_3 (.list (.place .hash))) rfl rfl (lst_since (lst_list (lst_hash n v))) (.inl rfl) <|
    lstF_enumReq .str rfl rfl (echo_string) (by simp) <|
    lstF_field (.since SpecVersion1_7 (.list (.place .property))) rfl rfl (lst_since (lst_list (lst_property n v))) (.inl rfl) <|
    lstF_nil)

theorem lst_jsfPublicKey (n : Nat) (v : Int) : LstC n v (.place .publicKey) J.jsfPublicKey :=
  lst_struct [] []
    ["kty", "crv", "x", "y", "n", "e"] (fun _ => rfl) (by simp) rfl
    (by decide +kernel) (by decide +kernel) (
    lstF_enum .str rfl rfl (echo_string) rfl <|
    lstF_enum .str rfl rfl (echo_string) rfl <|
    lstF_free rfl rfl <|
    lstF_free rfl rfl <|
    lstF_free rfl rfl <|
    lstF_free rfl rfl <|
    lstF_nil)

theorem lst_jsfSigner (n : Nat) (v : Int) : LstC n v (.place .signer) J.jsfSigner :=
  lst_struct [] []
    ["algorithm", "keyId", "publicKey", "certificatePath", "excludes", "value"] (fun _ => rfl) (by simp) rfl
    (by decide +kernel) (by decide +kernel) (
    lstF_free rfl rfl <|
    lstF_free rfl rfl <|
    lstF_field (.place .publicKey) rfl rfl (lst_jsfPublicKey n v) (.inr (fun j hj => (enum_jsfPublicKey v _ j hj).2 (by simp [JSFPublicKey.Listed, J.jsfPublicKey, JCodec.struct, JFields.zero, J.jsfPublicKeyFields, JCodec.string, JSFPublicKey.ofP]))) <|
    lstF_free rfl rfl <|
    lstF_free rfl rfl <|
    lstF_free rfl rfl <|
    lstF_nil)

theorem lst_jsfSignature (n : Nat) (v : Int) : LstC n v (.place .signature) J.jsfSignature :=
  lst_struct [] ["algorithm", "keyId", "publicKey", "certificatePath", "excludes", "value"]
    ["signers", "chain"] (fun _ => rfl) (by simp) rfl
    (by decide +kernel) (by decide +kernel) (
    lstF_skip <|
    lstF_field (.list (.place .signer)) rfl rfl (lst_list (lst_jsfSigner n v)) (.inl rfl) <|
    lstF_field (.list (.place .signer)) rfl rfl (lst_list (lst_jsfSigner n v)) (.inl rfl) <|
    lstF_nil)

theorem lst_mlModelCO2Measure (n : Nat) (v : Int) : LstC n v (.place .co2Measure) J.mlModelCO2Measure :=
  lst_struct ["unit"] []
    ["value", "unit"] (fun _ => rfl) (needs_req fun has h => by
      simp only [Place.Needs] at h
      simp only [List.mem_cons, List.not_mem_nil, or_false, forall_eq_or_imp, forall_eq]
      grind) rfl
    (by decide +kernel) (by decide +kernel) (
    lstF_free rfl rfl <|
    lstF_enumReq .str rfl rfl (echo_string) (by simp) <|
    lstF_nil)

theorem lst_mlModelEnergyMeasure (n : Nat) (v : Int) : LstC n v (.place .energyMeasure) J.mlModelEnergyMeasure :=
  lst_struct ["unit"] []
    ["value", "unit"] (fun _ => rfl) (needs_req fun has h => by
      simp only [Place.Needs] at h
      simp only [List.mem_cons, List.not_mem_nil, or_false, forall_eq_or_imp, forall_eq]
      grind) rfl
    (by decide +kernel) (by decide +kernel) (
    lstF_free rfl rfl <|
    lstF_enumReq .str rfl rfl (echo_string) (by simp) <|
    lstF_nil)

theorem lst_mlModelEnergyProvider (n : Nat) (v : Int) : LstC n v (.place .energyProvider) J.mlModelEnergyProvider :=
  lst_struct ["organization", "energySource", "energyProvided"] []
    ["bom-ref", "description", "organization", "energySource", "energyProvided", "externalReferences"] (fun _ => rfl) (needs_req fun has h => by
      simp only [Place.Needs] at h
      simp only [List.mem_cons, List.not_mem_nil, or_false, forall_eq_or_imp, forall_eq]
      grind) rfl
    (by decide +kernel) (by decide +kernel) (
    lstF_free rfl rfl <|
    lstF_free rfl rfl <|
    lstF_req (.place .organizationalEntity) rfl rfl (lst_option (lst_organizationalEntity n v)) (by simp) <|
    lstF_enumReq .str rfl rfl (echo_string) (by simp) <|
    lstF_req (.place .energyMeasure) rfl rfl (lst_option (lst_mlModelEnergyMeasure n v)) (by simp) <|
    lstF_field (.list (.place .externalReference)) rfl rfl (lst_list (lst_externalReference n v)) (.inl rfl) <|
    lstF_nil)

theorem lst_mlModelEnergyConsumption (n : Nat) (v : Int) : LstC n v (.place .energyConsumption) J.mlModelEnergyConsumption :=
  lst_struct ["activity", "energyProviders", "activityEnergyCost"] []
    ["activity", "energyProviders", "activityEnergyCost", "co2CostEquivalent", "co2CostOffset", "properties"] (fun _ => rfl) (needs_req fun has h => by
      simp only [Place.Needs] at h
      simp only [List.mem_cons, List.not_mem_nil, or_false, forall_eq_or_imp, forall_eq]
      grind) rfl
    (by decide +kernel) (by decide +kernel) (
    lstF_enumReq .str rfl rfl (echo_string) (by simp) <|
    lstF_req (.list (.place .energyProvider)) rfl rfl (lst_list (lst_mlModelEnergyProvider n v)) (by simp) <|
    lstF_req (.place .energyMeasure) rfl rfl (lst_mlModelEnergyMeasure n v) (by simp) <|
    lstF_field (.place .co2Measure) rfl rfl (lst_option (lst_mlModelCO2Measure n v)) (.inl rfl) <|
    lstF_field (.place .co2Measure) rfl rfl (lst_option (lst_mlModelCO2Measure n v)) (.inl rfl) <|
    lstF_field (.list (.place .property)) rfl rfl (lst_list (lst_property n v)) (.inl rfl) <|
    lstF_nil)

theorem lst_mlModelCardEnvironmentalConsiderations (n : Nat) (v : Int) : LstC n v (.place .environmentalConsiderations) J.mlModelCardEnvironmentalConsiderations :=
  lst_struct [] []
    ["energyConsumptions", "properties"] (fun _ => rfl) (by simp) rfl
    (by decide +kernel) (by decide +kernel) (
    lstF_field (.list (.place .energyConsumption)) rfl rfl (lst_list (lst_mlModelEnergyConsumption n v)) (.inl rfl) <|
    lstF_field (.list (.place .property)) rfl rfl (lst_list (lst_property n v)) (.inl rfl) <|
    lstF_nil)

theorem lst_mlModelCardEthicalConsideration (n : Nat) (v : Int) : LstC n v (.place .risk) J.mlModelCardEthicalConsideration :=
  lst_struct [] []
    ["name", "mitigationStrategy"] (fun _ => rfl) (by simp) rfl
    (by decide +kernel) (by decide +kernel) (
    lstF_free rfl rfl <|
    lstF_free rfl rfl <|
    lstF_nil)

theorem lst_mlModelCardFairnessAssessment (n : Nat) (v : Int) : LstC n v (.place .fairnessAssessment) J.mlModelCardFairnessAssessment :=
  lst_struct [] []
    ["groupAtRisk", "benefits", "harms", "mitigationStrategy"] (fun _ => rfl) (by simp) rfl
    (by decide +kernel) (by decide +kernel) (
    lstF_free rfl rfl <|
    lstF_free rfl rfl <|
    lstF_free rfl rfl <|
    lstF_free rfl rfl <|
    lstF_nil)

theorem lst_mlModelCardConsiderations (n : Nat) (v : Int) : LstC n v (.place .modelCardConsiderations) J.mlModelCardConsiderations :=
  lst_struct [] []
    ["users", "useCases", "technicalLimitations", "performanceTradeoffs", "ethicalConsiderations", "environmentalConsiderations", "fairnessAssessments"] (fun _ => rfl) (by simp) rfl
    (by decide +kernel) (by decide +kernel) (
    lstF_free rfl rfl <|
    lstF_free rfl rfl <|
    lstF_free rfl rfl <|
    lstF_free rfl rfl <|
    lstF_field (.list (.place .risk)) rfl rfl (lst_list (lst_mlModelCardEthicalConsideration n v)) (.inl rfl) <|
    lstF_field (.since SpecVersion1_6 (.place .environmentalConsiderations)) rfl rfl (lst_since (lst_option (lst_mlModelCardEnvironmentalConsiderations n v))) (.inl rfl) <|
    lstF_field (.list (.place .fairnessAssessment)) rfl rfl (lst_list (lst_mlModelCardFairnessAssessment n v)) (.inl rfl) <|
    lstF_nil)

theorem lst_mlDatasetChoice (n : Nat) (v : Int) : LstC n v (.place .modelDataset) J.mlDatasetChoice := by
  obtain ⟨I, hz, h⟩ := lst_componentData_modelDataset n v
  have key : ∀ x : MLDatasetChoice, (∀ d ∈ x.componentData, OutL v (.place .modelDataset) J.componentData d) →
      OutL v (.place .modelDataset) J.mlDatasetChoice x := by
    intro x hx j hj
    simp only [J.mlDatasetChoice] at hj
    split at hj
    · simp only [Option.some.injEq] at hj
      subst hj
      rw [listed_place]
      simp only [List.mem_singleton, forall_eq]
      exact ⟨lists_none rfl _, fun s hs => by cases hs; exact .str _⟩
    · cases hd : x.componentData with
      | none => simp only [hd, Option.some.injEq] at hj; subst hj; simp [listed_place]
      | some d => simp only [hd] at hj; exact hx d hd j hj
  refine ⟨fun x => ∀ d ∈ x.componentData, OutL v (.place .modelDataset) J.componentData d,
    (by intro d hd; cases hd), ?_⟩
  intro j old x hj hs hi hd
  suffices h : ∀ d ∈ x.componentData, OutL v (.place .modelDataset) J.componentData d from ⟨h, key x h⟩
  simp only [J.mlDatasetChoice] at hd
  split at hd
  · cases hd
  · split at hd
    · simp only [Option.some.injEq] at hd; subst hd; exact hi
    · split at hd
      · cases hd
      · rename_i d he
        split at hd
        · simp only [Option.some.injEq] at hd
          subst hd
          intro y hy
          cases hy
          exact (h _ _ _ hj hs hz he).2
        · simp only [Option.some.injEq] at hd; subst hd; exact hi


theorem lst_mlInputOutputParameters (n : Nat) (v : Int) : LstC n v (.place .inputOutputMLParameters) J.mlInputOutputParameters :=
  lst_struct [] []
    ["format"] (fun _ => rfl) (by simp) rfl
    (by decide +kernel) (by decide +kernel) (
    lstF_free rfl rfl <|
    lstF_nil)

theorem lst_mlModelParametersApproach (n : Nat) (v : Int) : LstC n v (.place .modelCardModelParametersApproach) J.mlModelParametersApproach :=
  lst_struct [] []
    ["type"] (fun _ => rfl) (by simp) rfl
    (by decide +kernel) (by decide +kernel) (
    lstF_enum .str rfl rfl (echo_string) rfl <|
    lstF_nil)

theorem lst_mlModelParameters (n : Nat) (v : Int) : LstC n v (.place .modelCardModelParameters) J.mlModelParameters :=
  lst_struct [] []
    ["approach", "task", "architectureFamily", "modelArchitecture", "datasets", "inputs", "outputs"] (fun _ => rfl) (by simp) rfl
    (by decide +kernel) (by decide +kernel) (
    lstF_field (.place .modelCardModelParametersApproach) rfl rfl (lst_option (lst_mlModelParametersApproach n v)) (.inl rfl) <|
    lstF_free rfl rfl <|
    lstF_free rfl rfl <|
    lstF_free rfl rfl <|
    lstF_field (.list (.place .modelDataset)) rfl rfl (lst_list (lst_mlDatasetChoice n v)) (.inl rfl) <|
    lstF_field (.list (.place .inputOutputMLParameters)) rfl rfl (lst_list (lst_mlInputOutputParameters n v)) (.inl rfl) <|
    lstF_field (.list (.place .inputOutputMLParameters)) rfl rfl (lst_list (lst_mlInputOutputParameters n v)) (.inl rfl) <|
    lstF_nil)

theorem lst_mlPerformanceMetricConfidenceInterval (n : Nat) (v : Int) : LstC n v (.place .performanceMetricConfidenceInterval) J.mlPerformanceMetricConfidenceInterval :=
  lst_struct [] []
    ["lowerBound", "upperBound"] (fun _ => rfl) (by simp) rfl
    (by decide +kernel) (by decide +kernel) (
    lstF_free rfl rfl <|
    lstF_free rfl rfl <|
    lstF_nil)

theorem lst_mlPerformanceMetric (n : Nat) (v : Int) : LstC n v (.place .performanceMetric) J.mlPerformanceMetric :=
  lst_struct [] []
    ["type", "value", "slice", "confidenceInterval"] (fun _ => rfl) (by simp) rfl
    (by decide +kernel) (by decide +kernel) (
    lstF_free rfl rfl <|
    lstF_free rfl rfl <|
    lstF_free rfl rfl <|
    lstF_field (.place .performanceMetricConfidenceInterval) rfl rfl (lst_option (lst_mlPerformanceMetricConfidenceInterval n v)) (.inl rfl) <|
    lstF_nil)

theorem lst_mlQuantitativeAnalysis (n : Nat) (v : Int) : LstC n v (.place .modelCardQuantitativeAnalysis) J.mlQuantitativeAnalysis :=
  lst_struct [] []
    ["performanceMetrics", "graphics"] (fun _ => rfl) (by simp) rfl
    (by decide +kernel) (by decide +kernel) (
    lstF_field (.list (.place .performanceMetric)) rfl rfl (lst_list (lst_mlPerformanceMetric n v)) (.inl rfl) <|
    lstF_field (.place .graphicsCollection) rfl rfl (lst_option (lst_componentDataGraphics n v)) (.inl rfl) <|
    lstF_nil)

theorem lst_mlModelCard (n : Nat) (v : Int) : LstC n v (.place .modelCard) J.mlModelCard :=
  lst_struct [] ["properties"]
    ["bom-ref", "modelParameters", "quantitativeAnalysis", "considerations"] (fun _ => rfl) (by simp) rfl
    (by decide +kernel) (by decide +kernel) (
    lstF_free rfl rfl <|
    lstF_field (.place .modelCardModelParameters) rfl rfl (lst_option (lst_mlModelParameters n v)) (.inl rfl) <|
    lstF_field (.place .modelCardQuantitativeAnalysis) rfl rfl (lst_option (lst_mlQuantitativeAnalysis n v)) (.inl rfl) <|
    lstF_field (.place .modelCardConsiderations) rfl rfl (lst_option (lst_mlModelCardConsiderations n v)) (.inl rfl) <|
    lstF_nil)

theorem lst_identifiableAction (n : Nat) (v : Int) : LstC n v (.place .identifiableAction) J.identifiableAction :=
  lst_struct [] []
    ["timestamp", "name", "email"] (fun _ => rfl) (by simp) rfl
    (by decide +kernel) (by decide +kernel) (
    lstF_free rfl rfl <|
    lstF_free rfl rfl <|
    lstF_free rfl rfl <|
    lstF_nil)

theorem lst_commit (n : Nat) (v : Int) : LstC n v (.place .commit) J.commit :=
  lst_struct [] []
    ["uid", "url", "author", "committer", "message"] (fun _ => rfl) (by simp) rfl
    (by decide +kernel) (by decide +kernel) (
    lstF_free rfl rfl <|
    lstF_free rfl rfl <|
    lstF_field (.place .identifiableAction) rfl rfl (lst_option (lst_identifiableAction n v)) (.inl rfl) <|
    lstF_field (.place .identifiableAction) rfl rfl (lst_option (lst_identifiableAction n v)) (.inl rfl) <|
    lstF_free rfl rfl <|
    lstF_nil)

theorem lst_diff (n : Nat) (v : Int) : LstC n v (.place .diff) J.diff :=
  lst_struct [] []
    ["text", "url"] (fun _ => rfl) (by simp) rfl
    (by decide +kernel) (by decide +kernel) (
    lstF_field (.place .attachment) rfl rfl (lst_option (lst_attachedText n v)) (.inl rfl) <|
    lstF_free rfl rfl <|
    lstF_nil)

theorem lst_source (n : Nat) (v : Int) : LstC n v (.place .vulnerabilitySource) J.source :=
  lst_struct [] []
    ["name", "url"] (fun _ => rfl) (by simp) rfl
    (by decide +kernel) (by decide +kernel) (
    lstF_free rfl rfl <|
    lstF_free rfl rfl <|
    lstF_nil)

theorem lst_source_issueSource (n : Nat) (v : Int) : LstC n v (.place .issueSource) J.source :=
  lst_struct [] []
    ["name", "url"] (fun _ => rfl) (by simp) rfl
    (by decide +kernel) (by decide +kernel) (
    lstF_free rfl rfl <|
    lstF_free rfl rfl <|
    lstF_nil)

theorem lst_issue (n : Nat) (v : Int) : LstC n v (.place .issue) J.issue :=
  lst_struct ["type"] []
    ["id", "name", "description", "source", "references", "type"] (fun _ => rfl) (needs_req fun has h => by
      simp only [Place.Needs] at h
      simp only [List.mem_cons, List.not_mem_nil, or_false, forall_eq_or_imp, forall_eq]
      grind) rfl
    (by decide +kernel) (by decide +kernel) (
    lstF_free rfl rfl <|
    lstF_free rfl rfl <|
    lstF_free rfl rfl <|
    lstF_field (.place .issueSource) rfl rfl (lst_option (lst_source_issueSource n v)) (.inl rfl) <|
    lstF_free rfl rfl <|
    lstF_enumReq .str rfl rfl (echo_string) (by simp) <|
    lstF_nil)

theorem lst_patch (n : Nat) (v : Int) : LstC n v (.place .patch) J.patch :=
  lst_struct ["type"] []
    ["diff", "resolves", "type"] (fun _ => rfl) (needs_req fun has h => by
      simp only [Place.Needs] at h
      simp only [List.mem_cons, List.not_mem_nil, or_false, forall_eq_or_imp, forall_eq]
      grind) rfl
    (by decide +kernel) (by decide +kernel) (
    lstF_field (.place .diff) rfl rfl (lst_option (lst_diff n v)) (.inl rfl) <|
    lstF_field (.list (.place .issue)) rfl rfl (lst_list (lst_issue n v)) (.inl rfl) <|
    lstF_enumReq .str rfl rfl (echo_string) (by simp) <|
    lstF_nil)

theorem lst_pedigreeWith (C : JCodec Component) (n : Nat) (v : Int) (hC : LstC n v (.place .component) C) :
    LstC n v (.place .componentPedigree) (J.pedigree C) :=
  lst_struct [] []
    ["ancestors", "descendants", "variants", "commits", "patches", "notes"] (fun _ => rfl) (by simp) rfl
    (by decide +kernel) (by decide +kernel) (
    lstF_field (.list (.place .component)) rfl rfl (lst_list (hC)) (.inl rfl) <|
    lstF_field (.list (.place .component)) rfl rfl (lst_list (hC)) (.inl rfl) <|
    lstF_field (.list (.place .component)) rfl rfl (lst_list (hC)) (.inl rfl) <|
    lstF_field (.list (.place .commit)) rfl rfl (lst_list (lst_commit n v)) (.inl rfl) <|
    lstF_field (.list (.place .patch)) rfl rfl (lst_list (lst_patch n v)) (.inl rfl) <|
    lstF_free rfl rfl <|
    lstF_nil)


theorem lst_note (n : Nat) (v : Int) : LstC n v (.place .note) J.note :=
  lst_struct ["text"] []
    ["locale", "text"] (fun _ => rfl) (needs_req fun has h => by
      simp only [Place.Needs] at h
      simp only [List.mem_cons, List.not_mem_nil, or_false, forall_eq_or_imp, forall_eq]
      grind) rfl
    (by decide +kernel) (by decide +kernel) (
    lstF_free rfl rfl <|
    lstF_req (.place .attachment) rfl rfl (lst_attachedText n v) (by simp) <|
    lstF_nil)

theorem lst_releaseNotes (n : Nat) (v : Int) : LstC n v (.place .releaseNotes) J.releaseNotes :=
  lst_struct [] []
    ["type", "title", "featuredImage", "socialImage", "description", "timestamp", "aliases", "tags", "resolves", "notes", "properties"] (fun _ => rfl) (by simp) rfl
    (by decide +kernel) (by decide +kernel) (
    lstF_free rfl rfl <|
    lstF_free rfl rfl <|
    lstF_free rfl rfl <|
    lstF_free rfl rfl <|
    lstF_free rfl rfl <|
    lstF_free rfl rfl <|
    lstF_free rfl rfl <|
    lstF_free rfl rfl <|
    lstF_field (.list (.place .issue)) rfl rfl (lst_list (lst_issue n v)) (.inl rfl) <|
    lstF_field (.list (.place .note)) rfl rfl (lst_list (lst_note n v)) (.inl rfl) <|
    lstF_field (.list (.place .property)) rfl rfl (lst_list (lst_property n v)) (.inl rfl) <|
    lstF_nil)

theorem lst_swid (n : Nat) (v : Int) : LstC n v (.place .swid) J.swid :=
  lst_struct [] []
    ["text", "url", "tagId", "name", "version", "tagVersion", "patch"] (fun _ => rfl) (by simp) rfl
    (by decide +kernel) (by decide +kernel) (
    lstF_field (.place .attachment) rfl rfl (lst_option (lst_attachedText n v)) (.inl rfl) <|
    lstF_free rfl rfl <|
    lstF_free rfl rfl <|
    lstF_free rfl rfl <|
    lstF_free rfl rfl <|
    lstF_free rfl rfl <|
    lstF_free rfl rfl <|
    lstF_nil)

theorem lst_asserterChoice (n : Nat) (v : Int) : LstC n v (.alt .str (.place .asserter)) J.asserterChoice :=
  lst_of_enum (enum_asserterChoice v)


theorem lst_patentAssertion (n : Nat) (v : Int) : LstC n v (.place .patentAssertion) J.patentAssertion :=
  lst_struct ["assertionType", "asserter"] []
    ["bom-ref", "patentRefs", "assertionType", "asserter", "notes"] (fun _ => rfl) (needs_req fun has h => by
      simp only [Place.Needs] at h
      simp only [List.mem_cons, List.not_mem_nil, or_false, forall_eq_or_imp, forall_eq]
      grind) rfl
    (by decide +kernel) (by decide +kernel) (
    lstF_free rfl rfl <|
    lstF_free rfl rfl <|
    lstF_enumReq .str rfl rfl (echo_string) (by simp) <|
    lstF_req (.alt .str (.place .asserter)) rfl rfl (lst_option (lst_asserterChoice n v)) (by simp) <|
    lstF_free rfl rfl <|
    lstF_nil)

theorem lst_componentWith (C : JCodec Component) (n : Nat) (v : Int) (hC : LstC n v (.place .component) C) :
    LstC (n + 1) v (.place .component) (J.componentWith C) :=
  have hP := lst_pedigreeWith C n v hC
  lst_struct' ["type"] []
    ["bom-ref", "mime-type", "type", "supplier", "manufacturer", "author", "authors", "publisher", "group", "name", "version", "description", "scope", "hashes", "licenses", "copyright", "cpe", "purl", "omniborId", "swhid", "swid", "modified", "pedigree", "externalReferences", "properties", "components", "evidence", "releaseNotes", "modelCard", "data", "cryptoProperties", "tags", "isExternal", "patentAssertions", "versionRange", "signature"] (fun _ => rfl) (needs_req fun has h => by
      simp only [Place.Needs] at h
      simp only [List.mem_cons, List.not_mem_nil, or_false, forall_eq_or_imp, forall_eq]
      grind) rfl
    (by decide +kernel) (by decide +kernel) (
    lstF_free rfl rfl <|
    lstF_free rfl rfl <|
    lstF_enumReq .str rfl rfl (echo_string) (by simp) <|
    lstF_field (.place .organizationalEntity) rfl rfl (lst_option (lst_organizationalEntity n v)) (.inl rfl) <|
    lstF_field (.since SpecVersion1_6 (.place .organizationalEntity)) rfl rfl (lst_since (lst_option (lst_organizationalEntity n v))) (.inl rfl) <|
    lstF_free rfl rfl <|
    lstF_field (.since SpecVersion1_6 (.list (.place .organizationalContact))) rfl rfl (lst_since (lst_list (lst_organizationalContact n v))) (.inl rfl) <|
    lstF_free rfl rfl <|
    lstF_free rfl rfl <|
    lstF_free rfl rfl <|
    lstF_free rfl rfl <|
    lstF_free rfl rfl <|
    lstF_enum .str rfl rfl (echo_string) rfl <|
    lstF_field (.list (.place .hash)) rfl rfl (lst_list (lst_hash n v)) (.inl rfl) <|
    lstF_field (.list (.place .licenseChoice)) rfl rfl (lst_list (lst_licenseChoice n v)) (.inl rfl) <|
    lstF_free rfl rfl <|
    lstF_free rfl rfl <|
    lstF_free rfl rfl <|
    lstF_free rfl rfl <|
    lstF_free rfl rfl <|
    lstF_field (.place .swid) rfl rfl (lst_option (lst_swid n v)) (.inl rfl) <|
    lstF_free rfl rfl <|
    lstF_field (.place .componentPedigree) rfl rfl (lst_option (hP)) (.inl rfl) <|
    lstF_field (.list (.place .externalReference)) rfl rfl (lst_list (lst_externalReference n v)) (.inl rfl) <|
    lstF_field (.since SpecVersion1_3 (.list (.place .property))) rfl rfl (lst_since (lst_list (lst_property n v))) (.inl rfl) <|
    lstF_field (.list (.place .component)) rfl rfl (lst_list (hC)) (.inl rfl) <|
    lstF_field (.since SpecVersion1_3 (.place .componentEvidence)) rfl rfl (lst_since (lst_option (lst_evidence n v))) (.inl rfl) <|
    lstF_field (.since SpecVersion1_4 (.place .releaseNotes)) rfl rfl (lst_since (lst_option (lst_releaseNotes n v))) (.inl rfl) <|
    lstF_field (.since SpecVersion1_5 (.place .modelCard)) rfl rfl (lst_since (lst_option (lst_mlModelCard n v))) (.inl rfl) <|
    lstF_field (.since SpecVersion1_5 (.list (.place .componentData))) rfl rfl (lst_since (lst_list (lst_componentData n v))) (.inl rfl) <|
    lstF_field (.since SpecVersion1_6 (.place .cryptoProperties)) rfl rfl (lst_since (lst_option (lst_cryptoProperties n v))) (.inl rfl) <|
    lstF_free rfl rfl <|
    lstF_free rfl rfl <|
    lstF_field (.since SpecVersion1_7 (.list (.place .patentAssertion))) rfl rfl (lst_since (lst_list (lst_patentAssertion n v))) (.inl rfl) <|
    lstF_free rfl rfl <|
    lstF_field (.since SpecVersion1_4 (.place .signature)) rfl rfl (lst_since (lst_option (lst_jsfSignature n v))) (.inl rfl) <|
    lstF_nil)

theorem lst_component (n : Nat) (v : Int) : LstC n v (.place .component) J.component := by
  induction n with
  | zero => exact ⟨fun _ => True, trivial, fun j old x hj => by omega⟩
  | succ n ih =>
    obtain ⟨I, hz, h⟩ := lst_componentWith _ n v ih
    refine ⟨I, hz, fun j old x hj hs hi hd => ?_⟩
    rw [component_dec] at hd
    obtain ⟨hi, ho⟩ := h j old x hj hs hi hd
    exact ⟨hi, fun i hi => ho i (by rw [← component_enc]; exact hi)⟩


theorem lst_dataClassification (n : Nat) (v : Int) : LstC n v (.place .serviceData) J.dataClassification :=
  lst_struct ["flow"] []
    ["flow", "classification", "name", "description", "governance", "source", "destination"] (fun _ => rfl) (needs_req fun has h => by
      simp only [Place.Needs] at h
      simp only [List.mem_cons, List.not_mem_nil, or_false, forall_eq_or_imp, forall_eq]
      grind) rfl
    (by decide +kernel) (by decide +kernel) (
    lstF_enumReq .str rfl rfl (echo_string) (by simp) <|
    lstF_free rfl rfl <|
    lstF_free rfl rfl <|
    lstF_free rfl rfl <|
    lstF_field (.since SpecVersion1_5 (.place .dataGovernance)) rfl rfl (lst_since (lst_option (lst_dataGovernance n v))) (.inl rfl) <|
    lstF_free rfl rfl <|
    lstF_free rfl rfl <|
    lstF_nil)

theorem lst_serviceWith (C : JCodec Service) (n : Nat) (v : Int) (hC : LstC n v (.place .service) C) :
    LstC (n + 1) v (.place .service) (J.serviceWith C) :=
  lst_struct' [] []
    ["bom-ref", "provider", "group", "name", "version", "description", "endpoints", "authenticated", "x-trust-boundary", "data", "licenses", "externalReferences", "properties", "services", "releaseNotes", "tags", "trustZone", "patentAssertions", "signature"] (fun _ => rfl) (by simp) rfl
    (by decide +kernel) (by decide +kernel) (
    lstF_free rfl rfl <|
    lstF_field (.place .organizationalEntity) rfl rfl (lst_option (lst_organizationalEntity n v)) (.inl rfl) <|
    lstF_free rfl rfl <|
    lstF_free rfl rfl <|
    lstF_free rfl rfl <|
    lstF_free rfl rfl <|
    lstF_free rfl rfl <|
    lstF_free rfl rfl <|
    lstF_free rfl rfl <|
    lstF_field (.list (.place .serviceData)) rfl rfl (lst_list (lst_dataClassification n v)) (.inl rfl) <|
    lstF_field (.list (.place .licenseChoice)) rfl rfl (lst_list (lst_licenseChoice n v)) (.inl rfl) <|
    lstF_field (.list (.place .externalReference)) rfl rfl (lst_list (lst_externalReference n v)) (.inl rfl) <|
    lstF_field (.since SpecVersion1_3 (.list (.place .property))) rfl rfl (lst_since (lst_list (lst_property n v))) (.inl rfl) <|
    lstF_field (.list (.place .service)) rfl rfl (lst_list (hC)) (.inl rfl) <|
    lstF_field (.since SpecVersion1_4 (.place .releaseNotes)) rfl rfl (lst_since (lst_option (lst_releaseNotes n v))) (.inl rfl) <|
    lstF_free rfl rfl <|
    lstF_free rfl rfl <|
    lstF_field (.since SpecVersion1_7 (.list (.place .patentAssertion))) rfl rfl (lst_since (lst_list (lst_patentAssertion n v))) (.inl rfl) <|
    lstF_field (.since SpecVersion1_4 (.place .signature)) rfl rfl (lst_since (lst_option (lst_jsfSignature n v))) (.inl rfl) <|
    lstF_nil)

theorem lst_service (n : Nat) (v : Int) : LstC n v (.place .service) J.service := by
  induction n with
  | zero => exact ⟨fun _ => True, trivial, fun j old x hj => by omega⟩
  | succ n ih =>
    obtain ⟨I, hz, h⟩ := lst_serviceWith _ n v ih
    refine ⟨I, hz, fun j old x hj hs hi hd => ?_⟩
    rw [service_dec] at hd
    obtain ⟨hi, ho⟩ := h j old x hj hs hi hd
    exact ⟨hi, fun i hi => ho i (by rw [← service_enc]; exact hi)⟩


theorem lst_annotator (n : Nat) (v : Int) : LstC n v (.place .annotationsAnnotator) J.annotator :=
  lst_struct [] []
    ["organization", "individual", "component", "service"] (fun _ => rfl) (by simp) rfl
    (by decide +kernel) (by decide +kernel) (
    lstF_field (.place .organizationalEntity) rfl rfl (lst_option (lst_organizationalEntity n v)) (.inl rfl) <|
    lstF_field (.place .organizationalContact) rfl rfl (lst_option (lst_organizationalContact n v)) (.inl rfl) <|
    lstF_field (.place .component) rfl rfl (lst_option (lst_component n v)) (.inl rfl) <|
    lstF_field (.place .service) rfl rfl (lst_option (lst_service n v)) (.inl rfl) <|
    lstF_nil)

theorem lst_annotation (n : Nat) (v : Int) : LstC n v (.place .annotations) J.annotation :=
  lst_struct [] []
    ["bom-ref", "subjects", "annotator", "timestamp", "text", "signature"] (fun _ => rfl) (by simp) rfl
    (by decide +kernel) (by decide +kernel) (
    lstF_free rfl rfl <|
    lstF_free rfl rfl <|
    lstF_field (.place .annotationsAnnotator) rfl rfl (lst_option (lst_annotator n v)) (.inl rfl) <|
    lstF_free rfl rfl <|
    lstF_free rfl rfl <|
    lstF_field (.place .signature) rfl rfl (lst_option (lst_jsfSignature n v)) (.inl rfl) <|
    lstF_nil)

theorem lst_assessor (n : Nat) (v : Int) : LstC n v (.place .assessors) J.assessor :=
  lst_struct [] []
    ["bom-ref", "thirdParty", "organization"] (fun _ => rfl) (by simp) rfl
    (by decide +kernel) (by decide +kernel) (
    lstF_free rfl rfl <|
    lstF_free rfl rfl <|
    lstF_field (.place .organizationalEntity) rfl rfl (lst_option (lst_organizationalEntity n v)) (.inl rfl) <|
    lstF_nil)

theorem lst_attestationConformance (n : Nat) (v : Int) : LstC n v (.place .conformance) J.attestationConformance :=
  lst_struct [] []
    ["score", "rationale", "mitigationStrategies"] (fun _ => rfl) (by simp) rfl
    (by decide +kernel) (by decide +kernel) (
    lstF_free rfl rfl <|
    lstF_free rfl rfl <|
    lstF_free rfl rfl <|
    lstF_nil)

theorem lst_attestationConfidence (n : Nat) (v : Int) : LstC n v (.place .confidence) J.attestationConfidence :=
  lst_struct [] []
    ["score", "rationale"] (fun _ => rfl) (by simp) rfl
    (by decide +kernel) (by decide +kernel) (
    lstF_free rfl rfl <|
    lstF_free rfl rfl <|
    lstF_nil)

theorem lst_attestationMap (n : Nat) (v : Int) : LstC n v (.place .attestationMap) J.attestationMap :=
  lst_struct [] []
    ["requirement", "claims", "counterClaims", "conformance", "confidence"] (fun _ => rfl) (by simp) rfl
    (by decide +kernel) (by decide +kernel) (
    lstF_free rfl rfl <|
    lstF_free rfl rfl <|
    lstF_free rfl rfl <|
    lstF_field (.place .conformance) rfl rfl (lst_option (lst_attestationConformance n v)) (.inl rfl) <|
    lstF_field (.place .confidence) rfl rfl (lst_option (lst_attestationConfidence n v)) (.inl rfl) <|
    lstF_nil)

theorem lst_attestation (n : Nat) (v : Int) : LstC n v (.place .attestations) J.attestation :=
  lst_struct [] []
    ["summary", "assessor", "map", "signature"] (fun _ => rfl) (by simp) rfl
    (by decide +kernel) (by decide +kernel) (
    lstF_free rfl rfl <|
    lstF_free rfl rfl <|
    lstF_field (.list (.place .attestationMap)) rfl rfl (lst_list (lst_attestationMap n v)) (.inl rfl) <|
    lstF_field (.place .signature) rfl rfl (lst_option (lst_jsfSignature n v)) (.inl rfl) <|
    lstF_nil)

theorem lst_composition (n : Nat) (v : Int) : LstC n v (.place .compositions) J.composition :=
  lst_struct ["aggregate"] []
    ["bom-ref", "aggregate", "assemblies", "dependencies", "vulnerabilities", "signature"] (fun _ => rfl) (needs_req fun has h => by
      simp only [Place.Needs] at h
      simp only [List.mem_cons, List.not_mem_nil, or_false, forall_eq_or_imp, forall_eq]
      grind) rfl
    (by decide +kernel) (by decide +kernel) (
    lstF_free rfl rfl <|
    lstF_enumReq .str rfl rfl (echo_string) (by simp) <|
    lstF_free rfl rfl <|
    lstF_free rfl rfl <|
    lstF_free rfl rfl <|
    lstF_field (.since SpecVersion1_4 (.place .signature)) rfl rfl (lst_since (lst_option (lst_jsfSignature n v))) (.inl rfl) <|
    lstF_nil)

theorem lst_claim (n : Nat) (v : Int) : LstC n v (.place .claims) J.claim :=
  lst_struct [] []
    ["bom-ref", "target", "predicate", "mitigationStrategies", "reasoning", "evidence", "counterEvidence", "externalReferences", "signature"] (fun _ => rfl) (by simp) rfl
    (by decide +kernel) (by decide +kernel) (
    lstF_free rfl rfl <|
    lstF_free rfl rfl <|
    lstF_free rfl rfl <|
    lstF_free rfl rfl <|
    lstF_free rfl rfl <|
    lstF_free rfl rfl <|
    lstF_free rfl rfl <|
    lstF_field (.list (.place .externalReference)) rfl rfl (lst_list (lst_externalReference n v)) (.inl rfl) <|
    lstF_field (.place .signature) rfl rfl (lst_option (lst_jsfSignature n v)) (.inl rfl) <|
    lstF_nil)

theorem lst_evidenceDataContents (n : Nat) (v : Int) : LstC n v (.place .evidenceDataContents) J.evidenceDataContents :=
  lst_struct [] []
    ["attachment", "url"] (fun _ => rfl) (by simp) rfl
    (by decide +kernel) (by decide +kernel) (
    lstF_field (.place .attachment) rfl rfl (lst_option (lst_attachedText n v)) (.inl rfl) <|
    lstF_free rfl rfl <|
    lstF_nil)

theorem lst_evidenceData (n : Nat) (v : Int) : LstC n v (.place .evidenceData) J.evidenceData :=
  lst_struct [] []
    ["name", "contents", "classification", "sensitiveData", "governance"] (fun _ => rfl) (by simp) rfl
    (by decide +kernel) (by decide +kernel) (
    lstF_free rfl rfl <|
    lstF_field (.place .evidenceDataContents) rfl rfl (lst_option (lst_evidenceDataContents n v)) (.inl rfl) <|
    lstF_free rfl rfl <|
    lstF_free rfl rfl <|
    lstF_field (.place .dataGovernance) rfl rfl (lst_option (lst_dataGovernance n v)) (.inl rfl) <|
    lstF_nil)

theorem lst_declarationEvidence (n : Nat) (v : Int) : LstC n v (.place .evidence) J.declarationEvidence :=
  lst_struct [] []
    ["bom-ref", "propertyName", "description", "data", "created", "expires", "author", "reviewer", "signature"] (fun _ => rfl) (by simp) rfl
    (by decide +kernel) (by decide +kernel) (
    lstF_free rfl rfl <|
    lstF_free rfl rfl <|
    lstF_free rfl rfl <|
    lstF_field (.list (.place .evidenceData)) rfl rfl (lst_list (lst_evidenceData n v)) (.inl rfl) <|
    lstF_free rfl rfl <|
    lstF_free rfl rfl <|
    lstF_field (.place .organizationalContact) rfl rfl (lst_option (lst_organizationalContact n v)) (.inl rfl) <|
    lstF_field (.place .organizationalContact) rfl rfl (lst_option (lst_organizationalContact n v)) (.inl rfl) <|
    lstF_field (.place .signature) rfl rfl (lst_option (lst_jsfSignature n v)) (.inl rfl) <|
    lstF_nil)

theorem lst_targets (n : Nat) (v : Int) : LstC n v (.place .targets) J.targets :=
  lst_struct [] []
    ["organizations", "components", "services"] (fun _ => rfl) (by simp) rfl
    (by decide +kernel) (by decide +kernel) (
    lstF_field (.list (.place .organizationalEntity)) rfl rfl (lst_list (lst_organizationalEntity n v)) (.inl rfl) <|
    lstF_field (.list (.place .component)) rfl rfl (lst_list (lst_component n v)) (.inl rfl) <|
    lstF_field (.list (.place .service)) rfl rfl (lst_list (lst_service n v)) (.inl rfl) <|
    lstF_nil)

theorem lst_signatory (n : Nat) (v : Int) : LstC n v (.place .affirmationSignatories) J.signatory :=
  lst_struct [] []
    ["name", "role", "signature", "organization", "externalReference"] (fun _ => rfl) (by simp) rfl
    (by decide +kernel) (by decide +kernel) (
    lstF_free rfl rfl <|
    lstF_free rfl rfl <|
    lstF_field (.place .signature) rfl rfl (lst_option (lst_jsfSignature n v)) (.inl rfl) <|
    lstF_field (.place .organizationalEntity) rfl rfl (lst_option (lst_organizationalEntity n v)) (.inl rfl) <|
    lstF_field (.place .externalReference) rfl rfl (lst_option (lst_externalReference n v)) (.inl rfl) <|
    lstF_nil)

theorem lst_affirmation (n : Nat) (v : Int) : LstC n v (.place .affirmation) J.affirmation :=
  lst_struct [] []
    ["statement", "signatories", "signature"] (fun _ => rfl) (by simp) rfl
    (by decide +kernel) (by decide +kernel) (
    lstF_free rfl rfl <|
    lstF_field (.list (.place .affirmationSignatories)) rfl rfl (lst_list (lst_signatory n v)) (.inl rfl) <|
    lstF_field (.place .signature) rfl rfl (lst_option (lst_jsfSignature n v)) (.inl rfl) <|
    lstF_nil)

theorem lst_declarations (n : Nat) (v : Int) : LstC n v (.place .bomDeclarations) J.declarations :=
  lst_struct [] []
    ["assessors", "attestations", "claims", "evidence", "targets", "affirmation", "signature"] (fun _ => rfl) (by simp) rfl
    (by decide +kernel) (by decide +kernel) (
    lstF_field (.list (.place .assessors)) rfl rfl (lst_list (lst_assessor n v)) (.inl rfl) <|
    lstF_field (.list (.place .attestations)) rfl rfl (lst_list (lst_attestation n v)) (.inl rfl) <|
    lstF_field (.list (.place .claims)) rfl rfl (lst_list (lst_claim n v)) (.inl rfl) <|
    lstF_field (.list (.place .evidence)) rfl rfl (lst_list (lst_declarationEvidence n v)) (.inl rfl) <|
    lstF_field (.place .targets) rfl rfl (lst_option (lst_targets n v)) (.inl rfl) <|
    lstF_field (.place .affirmation) rfl rfl (lst_option (lst_affirmation n v)) (.inl rfl) <|
    lstF_field (.place .signature) rfl rfl (lst_option (lst_jsfSignature n v)) (.inl rfl) <|
    lstF_nil)

theorem lst_priorityApplication (n : Nat) (v : Int) : LstC n v (.place .priorityApplication) J.priorityApplication :=
  lst_struct [] []
    ["applicationNumber", "jurisdiction", "filingDate"] (fun _ => rfl) (by simp) rfl
    (by decide +kernel) (by decide +kernel) (
    lstF_free rfl rfl <|
    lstF_free rfl rfl <|
    lstF_free rfl rfl <|
    lstF_nil)


theorem lst_patentFamily (n : Nat) (v : Int) : LstC n v (.place .patentOrFamily) J.patentFamily :=
  lst_struct [] ["patentNumber", "applicationNumber", "jurisdiction", "publicationNumber", "title", "abstract", "filingDate", "grantDate", "patentExpirationDate", "patentLegalStatus", "patentAssignee"]
    ["bom-ref", "familyId", "priorityApplication", "members", "externalReferences"] (fun _ => rfl) (by simp) rfl
    (by decide +kernel) (by decide +kernel) (
    lstF_free rfl rfl <|
    lstF_free rfl rfl <|
    lstF_field (.place .priorityApplication) rfl rfl (lst_option (lst_priorityApplication n v)) (.inl rfl) <|
    lstF_free rfl rfl <|
    lstF_field (.list (.place .externalReference)) rfl rfl (lst_list (lst_externalReference n v)) (.inl rfl) <|
    lstF_nil)

theorem lst_patentChoice (n : Nat) (v : Int) : LstC n v (.place .patentOrFamily) J.patentChoice := by
  obtain ⟨I, hz, h⟩ := lst_structD (n := n) (v := v) (p := .patentOrFamily) (F := J.patentFields)
    (toP := Patent.toP) (ofP := Patent.ofP) (fun ms => ∃ m ∈ ms, m.1 = "patentLegalStatus") ["patentLegalStatus"] ["familyId", "members"]
    ["bom-ref", "patentNumber", "applicationNumber", "jurisdiction", "priorityApplication", "publicationNumber", "title", "abstract", "filingDate", "grantDate", "patentExpirationDate", "patentLegalStatus", "patentAssignee", "externalReferences"] (fun _ => rfl) (fun ms _ hD k hk => by simp only [List.mem_singleton] at hk; subst hk; exact hD) rfl
    (by decide +kernel) (by decide +kernel) (
    lstF_free rfl rfl <|
    lstF_free rfl rfl <|
    lstF_free rfl rfl <|
    lstF_free rfl rfl <|
    lstF_field (.place .priorityApplication) rfl rfl (lst_option (lst_priorityApplication n v)) (.inl rfl) <|
    lstF_free rfl rfl <|
    lstF_free rfl rfl <|
    lstF_free rfl rfl <|
    lstF_free rfl rfl <|
    lstF_free rfl rfl <|
    lstF_free rfl rfl <|
    lstF_enumReq .str rfl rfl (echo_string) (by simp) <|
    lstF_field (.list (.place .patentAssignee)) rfl rfl (lst_list (lst_organizationalEntityOrContact_patentAssignee n v)) (.inl rfl) <|
    lstF_field (.list (.place .externalReference)) rfl rfl (lst_list (lst_externalReference n v)) (.inl rfl) <|
    lstF_nil)
  obtain ⟨L, lz, hl⟩ := lst_patentFamily n v
  let A : PatentChoice → Prop := fun x => (∀ d ∈ x.patent, OutL v (.place .patentOrFamily) J.patent d) ∧
      (∀ d ∈ x.patentFamily, OutL v (.place .patentOrFamily) J.patentFamily d)
  refine ⟨A, ⟨(by intro d hd; cases hd), (by intro d hd; cases hd)⟩, ?_⟩
  intro j old x hj hs hi hd
  obtain ⟨ms, rfl⟩ := conforms_place_obj hs.declared
  have hj' : Json.depthM ms + 1 < n := hj
  suffices h : A x by
    refine ⟨h, ?_⟩
    obtain ⟨h1, h2⟩ := h
    obtain ⟨a, b⟩ := x
    intro j hj
    cases a <;> cases b <;> simp only [J.patentChoice] at hj
    · simp only [Option.some.injEq] at hj
      subst hj
      first | exact listed_null _ | simp [listed_place]
    · exact h2 _ rfl j hj
    · exact h1 _ rfl j hj
    · exact h1 _ rfl j hj
  simp only [J.patentChoice] at hd
  cases hp : (J.peek "familyId").dec (.obj ms) "" with
  | none => rw [hp] at hd; cases hd
  | some t =>
    simp only [hp] at hd
    split at hd
    · split at hd
      · cases hd
      · rename_i q he
        simp only [Option.some.injEq] at hd
        subst hd
        exact ⟨hi.1, fun y hy => by cases hy; exact (hl _ _ _ hj hs lz he).2⟩
    · rename_i ht
      split at hd
      · cases hd
      · rename_i q he
        simp only [Option.some.injEq] at hd
        subst hd
        refine ⟨fun y hy => ?_, hi.2⟩
        cases hy
        refine (h ms _ q (by omega) hs ?_ hz he).2
        rcases (required_place.1 hs.required).1 with hr | hr
        · exact hr.2.2
        · refine absurd ?_ ht
          rw [peek_obj] at hp
          refine decAll_string_ne _ "" t (fun i hi => ?_) (.inr fun e => ?_) hp
          · simp only [selected, List.mem_map, List.mem_filter, decide_eq_true_eq] at hi
            obtain ⟨m, ⟨hm, hk⟩, rfl⟩ := hi
            obtain ⟨s, hs', hc⟩ := conforms_place.1 hs.declared m hm
            have : m.1 = "familyId" := by
              have := lookup_mem hs'
              have hall : (Place.patentOrFamily.members.all fun m => decide (foldKey m.1 = foldKey "familyId" → m.1 = "familyId")) = true := by
                decide +kernel
              rw [List.all_eq_true] at hall
              have := hall _ this
              simp only [decide_eq_true_eq] at this
              exact this hk
            obtain ⟨k, w⟩ := m
            simp only at this hs' hc ⊢
            subst this
            cases hs'
            obtain ⟨u, rfl⟩ := conforms_str.1 hc
            refine ⟨u, fun e => ?_, rfl⟩
            subst e
            exact hs.stated (.family hm)
          · obtain ⟨m, hm, hk⟩ := hr
            simp only [selected, List.map_eq_nil_iff, List.filter_eq_nil_iff, decide_eq_true_eq] at e
            exact e m hm (by rw [hk])


theorem lst_standardRequirement (n : Nat) (v : Int) : LstC n v (.place .standardRequirements) J.standardRequirement :=
  lst_struct [] []
    ["bom-ref", "identifier", "title", "text", "descriptions", "openCre", "parent", "properties", "externalReferences"] (fun _ => rfl) (by simp) rfl
    (by decide +kernel) (by decide +kernel) (
    lstF_free rfl rfl <|
    lstF_free rfl rfl <|
    lstF_free rfl rfl <|
    lstF_free rfl rfl <|
    lstF_free rfl rfl <|
    lstF_free rfl rfl <|
    lstF_free rfl rfl <|
    lstF_field (.list (.place .property)) rfl rfl (lst_list (lst_property n v)) (.inl rfl) <|
    lstF_field (.list (.place .externalReference)) rfl rfl (lst_list (lst_externalReference n v)) (.inl rfl) <|
    lstF_nil)

theorem lst_standardLevel (n : Nat) (v : Int) : LstC n v (.place .standardLevels) J.standardLevel :=
  lst_struct [] []
    ["bom-ref", "identifier", "title", "description", "requirements"] (fun _ => rfl) (by simp) rfl
    (by decide +kernel) (by decide +kernel) (
    lstF_free rfl rfl <|
    lstF_free rfl rfl <|
    lstF_free rfl rfl <|
    lstF_free rfl rfl <|
    lstF_free rfl rfl <|
    lstF_nil)

theorem lst_standardDefinition (n : Nat) (v : Int) : LstC n v (.place .standard) J.standardDefinition :=
  lst_struct [] []
    ["bom-ref", "name", "version", "description", "owner", "requirements", "levels", "externalReferences", "signature"] (fun _ => rfl) (by simp) rfl
    (by decide +kernel) (by decide +kernel) (
    lstF_free rfl rfl <|
    lstF_free rfl rfl <|
    lstF_free rfl rfl <|
    lstF_free rfl rfl <|
    lstF_free rfl rfl <|
    lstF_field (.list (.place .standardRequirements)) rfl rfl (lst_list (lst_standardRequirement n v)) (.inl rfl) <|
    lstF_field (.list (.place .standardLevels)) rfl rfl (lst_list (lst_standardLevel n v)) (.inl rfl) <|
    lstF_field (.list (.place .externalReference)) rfl rfl (lst_list (lst_externalReference n v)) (.inl rfl) <|
    lstF_field (.place .signature) rfl rfl (lst_option (lst_jsfSignature n v)) (.inl rfl) <|
    lstF_nil)

theorem lst_definitions (n : Nat) (v : Int) : LstC n v (.place .bomDefinitions) J.definitions :=
  lst_struct [] []
    ["standards", "patents"] (fun _ => rfl) (by simp) rfl
    (by decide +kernel) (by decide +kernel) (
    lstF_field (.list (.place .standard)) rfl rfl (lst_list (lst_standardDefinition n v)) (.inl rfl) <|
    lstF_field (.since SpecVersion1_7 (.list (.place .patentOrFamily))) rfl rfl (lst_since (lst_list (lst_patentChoice n v))) (.inl rfl) <|
    lstF_nil)

theorem lst_dependency (n : Nat) (v : Int) : LstC n v (.place .dependency) J.dependency :=
  lst_struct [] []
    ["ref", "dependsOn", "provides"] (fun _ => rfl) (by simp) rfl
    (by decide +kernel) (by decide +kernel) (
    lstF_free rfl rfl <|
    lstF_free rfl rfl <|
    lstF_free rfl rfl <|
    lstF_nil)

theorem lst_resourceReferenceChoice (n : Nat) (v : Int) : LstC n v (.place .resourceReferenceChoice) J.resourceReferenceChoice :=
  lst_struct [] []
    ["ref", "externalReference"] (fun _ => rfl) (by simp) rfl
    (by decide +kernel) (by decide +kernel) (
    lstF_free rfl rfl <|
    lstF_field (.place .externalReference) rfl rfl (lst_option (lst_externalReference n v)) (.inl rfl) <|
    lstF_nil)

theorem lst_environmentVariableChoice (n : Nat) (v : Int) : LstC n v (.alt .str (.place .property)) J.environmentVariableChoice :=
  lst_of_enum (enum_environmentVariableChoice v)


theorem lst_parameter (n : Nat) (v : Int) : LstC n v (.place .parameter) J.parameter :=
  lst_struct [] []
    ["name", "value", "dataType"] (fun _ => rfl) (by simp) rfl
    (by decide +kernel) (by decide +kernel) (
    lstF_free rfl rfl <|
    lstF_free rfl rfl <|
    lstF_free rfl rfl <|
    lstF_nil)

theorem lst_taskInput (n : Nat) (v : Int) : LstC n v (.place .inputType) J.taskInput :=
  lst_struct [] []
    ["resource", "parameters", "environmentVars", "data", "source", "target", "properties"] (fun _ => rfl) (by simp) rfl
    (by decide +kernel) (by decide +kernel) (
    lstF_field (.place .resourceReferenceChoice) rfl rfl (lst_option (lst_resourceReferenceChoice n v)) (.inl rfl) <|
    lstF_field (.list (.place .parameter)) rfl rfl (lst_list (lst_parameter n v)) (.inl rfl) <|
    lstF_field (.list (.alt .str (.place .property))) rfl rfl (lst_list (lst_environmentVariableChoice n v)) (.inl rfl) <|
    lstF_field (.place .attachment) rfl rfl (lst_option (lst_attachedText n v)) (.inl rfl) <|
    lstF_field (.place .resourceReferenceChoice) rfl rfl (lst_option (lst_resourceReferenceChoice n v)) (.inl rfl) <|
    lstF_field (.place .resourceReferenceChoice) rfl rfl (lst_option (lst_resourceReferenceChoice n v)) (.inl rfl) <|
    lstF_field (.list (.place .property)) rfl rfl (lst_list (lst_property n v)) (.inl rfl) <|
    lstF_nil)

theorem lst_taskOutput (n : Nat) (v : Int) : LstC n v (.place .outputType) J.taskOutput :=
  lst_struct [] []
    ["resource", "parameters", "environmentVars", "data", "type", "source", "target", "properties"] (fun _ => rfl) (by simp) rfl
    (by decide +kernel) (by decide +kernel) (
    lstF_field (.place .resourceReferenceChoice) rfl rfl (lst_option (lst_resourceReferenceChoice n v)) (.inl rfl) <|
    lstF_free rfl rfl <|
    lstF_field (.list (.alt .str (.place .property))) rfl rfl (lst_list (lst_environmentVariableChoice n v)) (.inl rfl) <|
    lstF_field (.place .attachment) rfl rfl (lst_option (lst_attachedText n v)) (.inl rfl) <|
    lstF_enum .str rfl rfl (echo_string) rfl <|
    lstF_field (.place .resourceReferenceChoice) rfl rfl (lst_option (lst_resourceReferenceChoice n v)) (.inl rfl) <|
    lstF_field (.place .resourceReferenceChoice) rfl rfl (lst_option (lst_resourceReferenceChoice n v)) (.inl rfl) <|
    lstF_field (.list (.place .property)) rfl rfl (lst_list (lst_property n v)) (.inl rfl) <|
    lstF_nil)

theorem lst_taskCommand (n : Nat) (v : Int) : LstC n v (.place .command) J.taskCommand :=
  lst_struct [] []
    ["executed", "properties"] (fun _ => rfl) (by simp) rfl
    (by decide +kernel) (by decide +kernel) (
    lstF_free rfl rfl <|
    lstF_field (.list (.place .property)) rfl rfl (lst_list (lst_property n v)) (.inl rfl) <|
    lstF_nil)

theorem lst_taskStep (n : Nat) (v : Int) : LstC n v (.place .step) J.taskStep :=
  lst_struct [] []
    ["name", "description", "commands", "properties"] (fun _ => rfl) (by simp) rfl
    (by decide +kernel) (by decide +kernel) (
    lstF_free rfl rfl <|
    lstF_free rfl rfl <|
    lstF_field (.list (.place .command)) rfl rfl (lst_list (lst_taskCommand n v)) (.inl rfl) <|
    lstF_field (.list (.place .property)) rfl rfl (lst_list (lst_property n v)) (.inl rfl) <|
    lstF_nil)

theorem lst_event (n : Nat) (v : Int) : LstC n v (.place .event) J.event :=
  lst_struct [] []
    ["uid", "description", "timeReceived", "data", "source", "target", "properties"] (fun _ => rfl) (by simp) rfl
    (by decide +kernel) (by decide +kernel) (
    lstF_free rfl rfl <|
    lstF_free rfl rfl <|
    lstF_free rfl rfl <|
    lstF_field (.place .attachment) rfl rfl (lst_option (lst_attachedText n v)) (.inl rfl) <|
    lstF_field (.place .resourceReferenceChoice) rfl rfl (lst_option (lst_resourceReferenceChoice n v)) (.inl rfl) <|
    lstF_field (.place .resourceReferenceChoice) rfl rfl (lst_option (lst_resourceReferenceChoice n v)) (.inl rfl) <|
    lstF_field (.list (.place .property)) rfl rfl (lst_list (lst_property n v)) (.inl rfl) <|
    lstF_nil)

theorem lst_taskTriggerCondition (n : Nat) (v : Int) : LstC n v (.place .condition) J.taskTriggerCondition :=
  lst_struct [] []
    ["description", "expression", "properties"] (fun _ => rfl) (by simp) rfl
    (by decide +kernel) (by decide +kernel) (
    lstF_free rfl rfl <|
    lstF_free rfl rfl <|
    lstF_field (.list (.place .property)) rfl rfl (lst_list (lst_property n v)) (.inl rfl) <|
    lstF_nil)

theorem lst_taskTrigger (n : Nat) (v : Int) : LstC n v (.place .trigger) J.taskTrigger :=
  lst_struct [] []
    ["bom-ref", "uid", "name", "description", "resourceReferences", "type", "event", "conditions", "timeActivated", "inputs", "outputs", "properties"] (fun _ => rfl) (by simp) rfl
    (by decide +kernel) (by decide +kernel) (
    lstF_free rfl rfl <|
    lstF_free rfl rfl <|
    lstF_free rfl rfl <|
    lstF_free rfl rfl <|
    lstF_field (.list (.place .resourceReferenceChoice)) rfl rfl (lst_list (lst_resourceReferenceChoice n v)) (.inl rfl) <|
    lstF_enum .str rfl rfl (echo_string) rfl <|
    lstF_field (.place .event) rfl rfl (lst_option (lst_event n v)) (.inl rfl) <|
    lstF_field (.list (.place .condition)) rfl rfl (lst_list (lst_taskTriggerCondition n v)) (.inl rfl) <|
    lstF_free rfl rfl <|
    lstF_field (.list (.place .inputType)) rfl rfl (lst_list (lst_taskInput n v)) (.inl rfl) <|
    lstF_field (.list (.place .outputType)) rfl rfl (lst_list (lst_taskOutput n v)) (.inl rfl) <|
    lstF_field (.list (.place .property)) rfl rfl (lst_list (lst_property n v)) (.inl rfl) <|
    lstF_nil)

theorem lst_volume (n : Nat) (v : Int) : LstC n v (.place .volume) J.volume :=
  lst_struct [] []
    ["uid", "name", "mode", "path", "sizeAllocated", "persistent", "remote", "properties"] (fun _ => rfl) (by simp) rfl
    (by decide +kernel) (by decide +kernel) (
    lstF_free rfl rfl <|
    lstF_free rfl rfl <|
    lstF_enum .str rfl rfl (echo_string) rfl <|
    lstF_free rfl rfl <|
    lstF_free rfl rfl <|
    lstF_free rfl rfl <|
    lstF_free rfl rfl <|
    lstF_field (.list (.place .property)) rfl rfl (lst_list (lst_property n v)) (.inl rfl) <|
    lstF_nil)

theorem lst_taskWorkspace (n : Nat) (v : Int) : LstC n v (.place .workspace) J.taskWorkspace :=
  lst_struct [] []
    ["bom-ref", "uid", "name", "aliases", "description", "resourceReferences", "accessMode", "mountPath", "managedDataType", "volumeRequest", "volume", "properties"] (fun _ => rfl) (by simp) rfl
    (by decide +kernel) (by decide +kernel) (
    lstF_free rfl rfl <|
    lstF_free rfl rfl <|
    lstF_free rfl rfl <|
    lstF_free rfl rfl <|
    lstF_free rfl rfl <|
    lstF_field (.list (.place .resourceReferenceChoice)) rfl rfl (lst_list (lst_resourceReferenceChoice n v)) (.inl rfl) <|
    lstF_enum .str rfl rfl (echo_string) rfl <|
    lstF_free rfl rfl <|
    lstF_free rfl rfl <|
    lstF_free rfl rfl <|
    lstF_field (.place .volume) rfl rfl (lst_option (lst_volume n v)) (.inl rfl) <|
    lstF_field (.list (.place .property)) rfl rfl (lst_list (lst_property n v)) (.inl rfl) <|
    lstF_nil)

theorem lst_task (n : Nat) (v : Int) : LstC n v (.place .task) J.task :=
  lst_struct [] []
    ["bom-ref", "uid", "name", "description", "properties", "resourceReferences", "taskTypes", "trigger", "steps", "inputs", "outputs", "timeStart", "timeEnd", "workspaces", "runtimeTopology"] (fun _ => rfl) (by simp) rfl
    (by decide +kernel) (by decide +kernel) (
    lstF_free rfl rfl <|
    lstF_free rfl rfl <|
    lstF_free rfl rfl <|
    lstF_free rfl rfl <|
    lstF_field (.list (.place .property)) rfl rfl (lst_list (lst_property n v)) (.inl rfl) <|
    lstF_field (.list (.place .resourceReferenceChoice)) rfl rfl (lst_list (lst_resourceReferenceChoice n v)) (.inl rfl) <|
    lstF_enum (.list .str) rfl rfl (echo_list) rfl <|
    lstF_field (.place .trigger) rfl rfl (lst_option (lst_taskTrigger n v)) (.inl rfl) <|
    lstF_field (.list (.place .step)) rfl rfl (lst_list (lst_taskStep n v)) (.inl rfl) <|
    lstF_field (.list (.place .inputType)) rfl rfl (lst_list (lst_taskInput n v)) (.inl rfl) <|
    lstF_field (.list (.place .outputType)) rfl rfl (lst_list (lst_taskOutput n v)) (.inl rfl) <|
    lstF_free rfl rfl <|
    lstF_free rfl rfl <|
    lstF_field (.list (.place .workspace)) rfl rfl (lst_list (lst_taskWorkspace n v)) (.inl rfl) <|
    lstF_field (.list (.place .dependency)) rfl rfl (lst_list (lst_dependency n v)) (.inl rfl) <|
    lstF_nil)

theorem lst_workflow (n : Nat) (v : Int) : LstC n v (.place .workflow) J.workflow :=
  lst_struct [] []
    ["bom-ref", "uid", "name", "description", "resourceReferences", "tasks", "taskDependencies", "taskTypes", "trigger", "steps", "inputs", "outputs", "timeStart", "timeEnd", "workspaces", "runtimeTopology", "properties"] (fun _ => rfl) (by simp) rfl
    (by decide +kernel) (by decide +kernel) (
    lstF_free rfl rfl <|
    lstF_free rfl rfl <|
    lstF_free rfl rfl <|
    lstF_free rfl rfl <|
    lstF_field (.list (.place .resourceReferenceChoice)) rfl rfl (lst_list (lst_resourceReferenceChoice n v)) (.inl rfl) <|
    lstF_field (.list (.place .task)) rfl rfl (lst_list (lst_task n v)) (.inl rfl) <|
    lstF_field (.list (.place .dependency)) rfl rfl (lst_list (lst_dependency n v)) (.inl rfl) <|
    lstF_enum (.list .str) rfl rfl (echo_list) rfl <|
    lstF_field (.place .trigger) rfl rfl (lst_option (lst_taskTrigger n v)) (.inl rfl) <|
    lstF_field (.list (.place .step)) rfl rfl (lst_list (lst_taskStep n v)) (.inl rfl) <|
    lstF_field (.list (.place .inputType)) rfl rfl (lst_list (lst_taskInput n v)) (.inl rfl) <|
    lstF_field (.list (.place .outputType)) rfl rfl (lst_list (lst_taskOutput n v)) (.inl rfl) <|
    lstF_free rfl rfl <|
    lstF_free rfl rfl <|
    lstF_field (.list (.place .workspace)) rfl rfl (lst_list (lst_taskWorkspace n v)) (.inl rfl) <|
    lstF_field (.list (.place .dependency)) rfl rfl (lst_list (lst_dependency n v)) (.inl rfl) <|
    lstF_field (.list (.place .property)) rfl rfl (lst_list (lst_property n v)) (.inl rfl) <|
    lstF_nil)

theorem lst_formula (n : Nat) (v : Int) : LstC n v (.place .formula) J.formula :=
  lst_struct [] []
    ["bom-ref", "components", "services", "workflows", "properties"] (fun _ => rfl) (by simp) rfl
    (by decide +kernel) (by decide +kernel) (
    lstF_free rfl rfl <|
    lstF_field (.list (.place .component)) rfl rfl (lst_list (lst_component n v)) (.inl rfl) <|
    lstF_field (.list (.place .service)) rfl rfl (lst_list (lst_service n v)) (.inl rfl) <|
    lstF_field (.list (.place .workflow)) rfl rfl (lst_list (lst_workflow n v)) (.inl rfl) <|
    lstF_field (.list (.place .property)) rfl rfl (lst_list (lst_property n v)) (.inl rfl) <|
    lstF_nil)

theorem lst_lifecycle (n : Nat) (v : Int) : LstC n v (.place .metadataLifecycles) J.lifecycle :=
  lst_struct [] []
    ["name", "phase", "description"] (fun _ => rfl) (by simp) rfl
    (by decide +kernel) (by decide +kernel) (
    lstF_free rfl rfl <|
    lstF_enum .str rfl rfl (echo_string) rfl <|
    lstF_free rfl rfl <|
    lstF_nil)

theorem lst_tool (n : Nat) (v : Int) : LstC n v (.place .tool) J.tool :=
  lst_struct [] []
    ["vendor", "name", "version", "hashes", "externalReferences"] (fun _ => rfl) (by simp) rfl
    (by decide +kernel) (by decide +kernel) (
    lstF_free rfl rfl <|
    lstF_free rfl rfl <|
    lstF_free rfl rfl <|
    lstF_field (.list (.place .hash)) rfl rfl (lst_list (lst_hash n v)) (.inl rfl) <|
    lstF_field (.since SpecVersion1_4 (.list (.place .externalReference))) rfl rfl (lst_since (lst_list (lst_externalReference n v))) (.inl rfl) <|
    lstF_nil)

theorem lst_toolsChoiceJSON (n : Nat) (v : Int) : LstC n v (.place .tools) J.toolsChoiceJSON :=
  lst_struct [] [] ["components", "services"] (fun _ => rfl) (by simp) rfl (by decide +kernel) (by decide +kernel) (
    lstF_field (.list (.place .component)) rfl rfl (lst_list (lst_component n v)) (.inl rfl) <|
    lstF_field (.list (.place .service)) rfl rfl (lst_list (lst_service n v)) (.inl rfl) lstF_nil)

theorem lst_toolsChoice (n : Nat) (v : Int) : LstC n v (.alt (.list (.place .tool)) (.since SpecVersion1_5 (.place .tools))) J.toolsChoice := by
  obtain ⟨I, hz, h⟩ := lst_toolsChoiceJSON n v
  obtain ⟨L, lz, hl⟩ := lst_list (lst_tool n v)
  have lft : ∀ (ts : PSlice Tool) i, HasListed v (.list (.place .tool)) i → (JCodec.pslice J.tool).enc ts = some i →
      HasListed v (.alt (.list (.place .tool)) (.since SpecVersion1_5 (.place .tools))) i := by
    intro ts i hr hj
    refine .alt hr (.since ?_)
    cases ts with
    | list xs =>
      simp only [JCodec.pslice, Option.map_eq_some_iff] at hj
      obtain ⟨js, _, rfl⟩ := hj; exact listed_place_arr
    | _ =>
      simp only [JCodec.pslice, Option.some.injEq] at hj
      subst hj; exact listed_null _
  refine ⟨OutL v (.alt (.list (.place .tool)) (.since SpecVersion1_5 (.place .tools))) J.toolsChoice, ?_, ?_⟩
  · intro j hj
    simp [J.toolsChoice, PSlice.isNil] at hj
  intro j old x hj hs hi hd
  suffices h : OutL v (.alt (.list (.place .tool)) (.since SpecVersion1_5 (.place .tools))) J.toolsChoice x from ⟨h, h⟩
  rcases hs.alt with hs | hs
  · obtain ⟨js, rfl⟩ := conforms_list_arr hs.declared
    simp only [J.toolsChoice] at hd
    cases he : (JCodec.pslice J.tool).dec (.arr js) .nil with
    | none => rw [he] at hd; cases hd
    | some ts =>
      simp only [he, Option.some.injEq] at hd
      subst hd
      intro i hj'
      have := (hl _ _ _ hj hs lz he).2
      cases ts with
      | nil => simp [J.toolsChoice, PSlice.isNil] at hj'
      | nilSlice => exact lft _ i (this i (by simpa [J.toolsChoice, PSlice.isNil] using hj')) (by simpa [J.toolsChoice, PSlice.isNil] using hj')
      | list ts => exact lft _ i (this i (by simpa [J.toolsChoice, PSlice.isNil] using hj')) (by simpa [J.toolsChoice, PSlice.isNil] using hj')
  · have hs := hs.since
    obtain ⟨ms, rfl⟩ := conforms_place_obj hs.declared
    simp only [J.toolsChoice] at hd
    cases he : J.toolsChoiceJSON.dec (.obj ms) (.nil, .nil) with
    | none => rw [he] at hd; cases hd
    | some q =>
      simp only [he] at hd
      split at hd
      · rename_i hq
        simp only [Option.some.injEq] at hd
        subst hd
        intro i hj'
        have := (h _ _ _ hj hs hz he).2
        simp only [J.toolsChoice, PSlice.isNil, not_true_eq_false, false_and, if_false, Bool.not_eq_true] at hj' hq
        rw [if_pos hq] at hj'
        have := this i hj'
        obtain ⟨ms, rfl⟩ := struct_is_obj hj'
        exact .alt listed_list_obj (.since this)
      · simp only [Option.some.injEq] at hd; subst hd; exact hi

theorem lst_distributionConstraints (n : Nat) (v : Int) : LstC n v (.place .metadataDistributionConstraints) J.distributionConstraints :=
  lst_struct [] []
    ["tlp"] (fun _ => rfl) (by simp) rfl
    (by decide +kernel) (by decide +kernel) (
    lstF_enum .str rfl rfl (echo_string) rfl <|
    lstF_nil)

theorem lst_metadata (n : Nat) (v : Int) : LstC n v (.place .metadata) J.metadata :=
  lst_struct [] []
    ["timestamp", "lifecycles", "tools", "authors", "component", "manufacture", "manufacturer", "supplier", "licenses", "properties", "distributionConstraints"] (fun _ => rfl) (by simp) rfl
    (by decide +kernel) (by decide +kernel) (
    lstF_free rfl rfl <|
    lstF_field (.since SpecVersion1_5 (.list (.place .metadataLifecycles))) rfl rfl (lst_since (lst_list (lst_lifecycle n v))) (.inl rfl) <|
    lstF_field (.alt (.list (.place .tool)) (.since SpecVersion1_5 (.place .tools))) rfl rfl (lst_option (lst_toolsChoice n v)) (.inl rfl) <|
    lstF_field (.list (.place .organizationalContact)) rfl rfl (lst_list (lst_organizationalContact n v)) (.inl rfl) <|
    lstF_field (.place .component) rfl rfl (lst_option (lst_component n v)) (.inl rfl) <|
    lstF_field (.place .organizationalEntity) rfl rfl (lst_option (lst_organizationalEntity n v)) (.inl rfl) <|
    lstF_field (.since SpecVersion1_6 (.place .organizationalEntity)) rfl rfl (lst_since (lst_option (lst_organizationalEntity n v))) (.inl rfl) <|
    lstF_field (.place .organizationalEntity) rfl rfl (lst_option (lst_organizationalEntity n v)) (.inl rfl) <|
    lstF_field (.since SpecVersion1_3 (.list (.place .licenseChoice))) rfl rfl (lst_since (lst_list (lst_licenseChoice n v))) (.inl rfl) <|
    lstF_field (.since SpecVersion1_3 (.list (.place .property))) rfl rfl (lst_since (lst_list (lst_property n v))) (.inl rfl) <|
    lstF_field (.since SpecVersion1_7 (.place .metadataDistributionConstraints)) rfl rfl (lst_since (lst_option (lst_distributionConstraints n v))) (.inl rfl) <|
    lstF_nil)

theorem lst_credits (n : Nat) (v : Int) : LstC n v (.place .vulnerabilityCredits) J.credits :=
  lst_struct [] []
    ["organizations", "individuals"] (fun _ => rfl) (by simp) rfl
    (by decide +kernel) (by decide +kernel) (
    lstF_field (.list (.place .organizationalEntity)) rfl rfl (lst_list (lst_organizationalEntity n v)) (.inl rfl) <|
    lstF_field (.list (.place .organizationalContact)) rfl rfl (lst_list (lst_organizationalContact n v)) (.inl rfl) <|
    lstF_nil)

theorem lst_proofOfConcept (n : Nat) (v : Int) : LstC n v (.place .vulnerabilityProofOfConcept) J.proofOfConcept :=
  lst_struct [] []
    ["reproductionSteps", "environment", "supportingMaterial"] (fun _ => rfl) (by simp) rfl
    (by decide +kernel) (by decide +kernel) (
    lstF_free rfl rfl <|
    lstF_free rfl rfl <|
    lstF_field (.list (.place .attachment)) rfl rfl (lst_list (lst_attachedText n v)) (.inl rfl) <|
    lstF_nil)

theorem lst_vulnerabilityAnalysis (n : Nat) (v : Int) : LstC n v (.place .vulnerabilityAnalysis) J.vulnerabilityAnalysis :=
  lst_struct [] []
    ["state", "justification", "response", "detail", "firstIssued", "lastUpdated"] (fun _ => rfl) (by simp) rfl
    (by decide +kernel) (by decide +kernel) (
    lstF_enum .str rfl rfl (echo_string) rfl <|
    lstF_enum .str rfl rfl (echo_string) rfl <|
    lstF_enum (.list .str) rfl rfl (echo_list) rfl <|
    lstF_free rfl rfl <|
    lstF_free rfl rfl <|
    lstF_free rfl rfl <|
    lstF_nil)

theorem lst_vulnerabilityRating (n : Nat) (v : Int) : LstC n v (.place .rating) J.vulnerabilityRating :=
  lst_struct [] []
    ["source", "score", "severity", "method", "vector", "justification"] (fun _ => rfl) (by simp) rfl
    (by decide +kernel) (by decide +kernel) (
    lstF_field (.place .vulnerabilitySource) rfl rfl (lst_option (lst_source n v)) (.inl rfl) <|
    lstF_free rfl rfl <|
    lstF_enum .str rfl rfl (echo_string) rfl <|
    lstF_enum .str rfl rfl (echo_string) rfl <|
    lstF_free rfl rfl <|
    lstF_free rfl rfl <|
    lstF_nil)

theorem lst_vulnerabilityReference (n : Nat) (v : Int) : LstC n v (.place .vulnerabilityReferences) J.vulnerabilityReference :=
  lst_struct [] []
    ["id", "source"] (fun _ => rfl) (by simp) rfl
    (by decide +kernel) (by decide +kernel) (
    lstF_free rfl rfl <|
    lstF_field (.place .vulnerabilitySource) rfl rfl (lst_option (lst_source n v)) (.inl rfl) <|
    lstF_nil)

theorem lst_vulnerability (n : Nat) (v : Int) : LstC n v (.place .vulnerability) J.vulnerability :=
  lst_struct [] []
    ["bom-ref", "id", "source", "references", "ratings", "cwes", "description", "detail", "recommendation", "workaround", "proofOfConcept", "advisories", "created", "published", "updated", "rejected", "credits", "tools", "analysis", "affects", "properties"] (fun _ => rfl) (by simp) rfl
    (by decide +kernel) (by decide +kernel) (
    lstF_free rfl rfl <|
    lstF_free rfl rfl <|
    lstF_field (.place .vulnerabilitySource) rfl rfl (lst_option (lst_source n v)) (.inl rfl) <|
    lstF_field (.list (.place .vulnerabilityReferences)) rfl rfl (lst_list (lst_vulnerabilityReference n v)) (.inl rfl) <|
    lstF_field (.list (.place .rating)) rfl rfl (lst_list (lst_vulnerabilityRating n v)) (.inl rfl) <|
    lstF_free rfl rfl <|
    lstF_free rfl rfl <|
    lstF_free rfl rfl <|
    lstF_free rfl rfl <|
    lstF_free rfl rfl <|
    lstF_field (.since SpecVersion1_5 (.place .vulnerabilityProofOfConcept)) rfl rfl (lst_since (lst_option (lst_proofOfConcept n v))) (.inl rfl) <|
    lstF_field (.list (.place .advisory)) rfl rfl (lst_list (lst_advisory n v)) (.inl rfl) <|
    lstF_free rfl rfl <|
    lstF_free rfl rfl <|
    lstF_free rfl rfl <|
    lstF_free rfl rfl <|
    lstF_field (.place .vulnerabilityCredits) rfl rfl (lst_option (lst_credits n v)) (.inl rfl) <|
    lstF_field (.alt (.list (.place .tool)) (.since SpecVersion1_5 (.place .tools))) rfl rfl (lst_option (lst_toolsChoice n v)) (.inl rfl) <|
    lstF_field (.place .vulnerabilityAnalysis) rfl rfl (lst_option (lst_vulnerabilityAnalysis n v)) (.inl rfl) <|
    lstF_field (.list (.place .vulnerabilityAffects)) rfl rfl (lst_list (lst_affects n v)) (.inl rfl) <|
    lstF_field (.list (.place .property)) rfl rfl (lst_list (lst_property n v)) (.inl rfl) <|
    lstF_nil)

theorem lst_citation (n : Nat) (v : Int) : LstC n v (.place .citation) J.citation :=
  lst_struct [] []
    ["bom-ref", "pointers", "expressions", "timestamp", "attributedTo", "process", "note", "signature"] (fun _ => rfl) (by simp) rfl
    (by decide +kernel) (by decide +kernel) (
    lstF_free rfl rfl <|
    lstF_free rfl rfl <|
    lstF_free rfl rfl <|
    lstF_free rfl rfl <|
    lstF_free rfl rfl <|
    lstF_free rfl rfl <|
    lstF_free rfl rfl <|
    lstF_field (.place .signature) rfl rfl (lst_option (lst_jsfSignature n v)) (.inl rfl) <|
    lstF_nil)

theorem lst_bom (n : Nat) (v : Int) : LstC n v (.place .bom) J.bom :=
  lst_struct ["bomFormat"] []
    ["$schema", "bomFormat", "specVersion", "serialNumber", "version", "metadata", "components", "services", "externalReferences", "dependencies", "compositions", "properties", "vulnerabilities", "annotations", "formulation", "declarations", "definitions", "citations", "signature"] (fun _ => rfl) (needs_req fun has h => by
      simp only [Place.Needs] at h
      simp only [List.mem_cons, List.not_mem_nil, or_false, forall_eq_or_imp, forall_eq]
      grind) rfl
    (by decide +kernel) (by decide +kernel) (
    lstF_skip <|
    lstF_skip <|
    lstF_free rfl rfl <|
    lstF_enumReq .str rfl rfl (echo_string) (by simp) <|
    lstF_free rfl rfl <|
    lstF_free rfl rfl <|
    lstF_free rfl rfl <|
    lstF_field (.place .metadata) rfl rfl (lst_option (lst_metadata n v)) (.inl rfl) <|
    lstF_field (.list (.place .component)) rfl rfl (lst_list (lst_component n v)) (.inl rfl) <|
    lstF_field (.list (.place .service)) rfl rfl (lst_list (lst_service n v)) (.inl rfl) <|
    lstF_field (.list (.place .externalReference)) rfl rfl (lst_list (lst_externalReference n v)) (.inl rfl) <|
    lstF_field (.list (.place .dependency)) rfl rfl (lst_list (lst_dependency n v)) (.inl rfl) <|
    lstF_field (.since SpecVersion1_3 (.list (.place .compositions))) rfl rfl (lst_since (lst_list (lst_composition n v))) (.inl rfl) <|
    lstF_field (.since SpecVersion1_5 (.list (.place .property))) rfl rfl (lst_since (lst_list (lst_property n v))) (.inl rfl) <|
    lstF_field (.since SpecVersion1_4 (.list (.place .vulnerability))) rfl rfl (lst_since (lst_list (lst_vulnerability n v))) (.inl rfl) <|
    lstF_field (.since SpecVersion1_5 (.list (.place .annotations))) rfl rfl (lst_since (lst_list (lst_annotation n v))) (.inl rfl) <|
    lstF_field (.since SpecVersion1_5 (.list (.place .formula))) rfl rfl (lst_since (lst_list (lst_formula n v))) (.inl rfl) <|
    lstF_field (.since SpecVersion1_6 (.place .bomDeclarations)) rfl rfl (lst_since (lst_option (lst_declarations n v))) (.inl rfl) <|
    lstF_field (.since SpecVersion1_6 (.place .bomDefinitions)) rfl rfl (lst_since (lst_option (lst_definitions n v))) (.inl rfl) <|
    lstF_field (.since SpecVersion1_7 (.list (.place .citation))) rfl rfl (lst_since (lst_list (lst_citation n v))) (.inl rfl) <|
    lstF_field (.since SpecVersion1_4 (.place .signature)) rfl rfl (lst_since (lst_option (lst_jsfSignature n v))) (.inl rfl) <|
    lstF_nil)

end Verif
