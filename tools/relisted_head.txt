import Verif.Spec.JsonTerse
import Verif.Json.EnumLaws
import Verif.Json.FullLaws

/-!
# What is read from a document with only enumerated strings is written with only enumerated strings

GENERATED by `tools/gen_relisted.py`; do not edit by hand.  `LstC n v s c`: from a document less than `n` deep that is
`Proper` for `s` at version `v` the codec `c` reads a value that, if `c` writes it, it writes with only strings that
version `v` enumerates.  As in `Verif.Json.KeepLaws` there is an invariant of the values that decoding starts with.
-/

namespace Verif

open Json (foldKey)

set_option linter.unusedSectionVars false
set_option linter.unusedSimpArgs false

theorem Proper.elem {v : Int} {s : Sch} {js : List Json} (h : Proper v (.list s) (.arr js)) : ∀ j ∈ js, Proper v s j :=
  fun j hj => ⟨conforms_list.1 h.declared j hj, required_list.1 h.required j hj, listed_list.1 h.listed j hj,
    fun hb => h.stated (.elem hj hb)⟩
theorem Proper.since {v u : Int} {s : Sch} {j : Json} (h : Proper v (.since u s) j) : Proper v s j :=
  ⟨(conforms_since.1 h.declared).2, required_since.1 h.required, listed_since.1 h.listed,
    fun hb => h.stated (.since hb)⟩
theorem Proper.alt {v : Int} {s t : Sch} {j : Json} (h : Proper v (.alt s t) j) : Proper v s j ∨ Proper v t j := by
  have hr := required_alt.1 h.required
  have hl := listed_alt.1 h.listed
  rcases conforms_alt.1 h.declared with hc | hc
  · exact .inl ⟨hc, hr.1, hl.1, fun hb => h.stated (.left hb)⟩
  · exact .inr ⟨hc, hr.2, hl.2, fun hb => h.stated (.right hb)⟩
theorem Proper.member {v : Int} {p : Place} {ms : List (String × Json)} (h : Proper v (.place p) (.obj ms)) :
    ∀ m ∈ ms, p.ListsValue v m.1 m.2 ∧ ∃ s, p.members.lookup m.1 = some s ∧ Proper v s m.2 := by
  intro m hm
  obtain ⟨s, hs, hc⟩ := conforms_place.1 h.declared m hm
  have hl := listed_place.1 h.listed m hm
  exact ⟨hl.1, s, hs, hc, (required_place.1 h.required).2 m hm s hs, hl.2 s hs, fun hb => h.stated (.member hm hs hb)⟩

/-- If `c` writes `x`, it writes it with enumerated strings. -/
def OutL {α : Type} (v : Int) (s : Sch) (c : JCodec α) (x : α) : Prop := ∀ j, c.enc x = some j → HasListed v s j

/-- The member is written with enumerated strings. -/
def MemberL (v : Int) (p : Place) (m : String × Json) : Prop :=
  p.ListsValue v m.1 m.2 ∧ ∀ s, p.members.lookup m.1 = some s → HasListed v s m.2

/-- What `c` reads from proper documents less than `n` deep is written with enumerated strings. -/
def LstC {α : Type} (n : Nat) (v : Int) (s : Sch) (c : JCodec α) : Prop :=
  ∃ I : α → Prop, I c.zero ∧ ∀ j old x, j.depth < n → Proper v s j → I old → c.dec j old = some x → I x ∧ OutL v s c x

/-- The same for the fields of a struct.  The invariant knows the members that have been read; `req` are those that are
written with enumerated strings only when they have been. -/
def LstF {β : Type} (n : Nat) (v : Int) (p : Place) (req : List String) (F : JFields β) : Prop :=
  ∃ K : β → (String → Prop) → Prop, K F.zero (fun _ => False) ∧
    (∀ b S T, (∀ k ∈ F.names, T k → S k) → K b S → K b T) ∧
    (∀ k s j b b' S, p.members.lookup k = some s → j.depth < n → Proper v s j → p.ListsValue v k j → F.names.Nodup →
      fieldFor F.names k = some k → K b S → F.set k j b = some b' → K b' fun x => S x ∨ x = k) ∧
    (∀ b S ms, (∀ k ∈ req, S k) → K b S → F.enc b = some ms → ∀ m ∈ ms, MemberL v p m)

section
variable [FloatIO]

theorem LstC.mono {α : Type} {m n : Nat} {v : Int} {s : Sch} {c : JCodec α} (h : LstC n v s c) (hmn : m ≤ n) :
    LstC m v s c := by
  obtain ⟨I, hz, h⟩ := h
  exact ⟨I, hz, fun j old x hj => h j old x (by omega)⟩

theorem outL_of_enum {α : Type} {v : Int} {s : Sch} {c : JCodec α} {x : α} (h : EnumC v s c x True) : OutL v s c x :=
  fun j hj => (h j hj).2 trivial

theorem lst_of_enum {α : Type} {n : Nat} {v : Int} {s : Sch} {c : JCodec α} (h : ∀ x, EnumC v s c x True) :
    LstC n v s c := ⟨fun _ => True, trivial, fun _ _ _ _ _ _ _ => ⟨trivial, outL_of_enum (h _)⟩⟩

theorem lst_plain {α : Type} {n : Nat} {v : Int} {s : Sch} {c : JCodec α} (h : s.plain = true) :
    LstC n v s c := ⟨fun _ => True, trivial, fun _ _ _ _ _ _ _ => ⟨trivial, fun j _ => listed_plain h j⟩⟩

theorem lst_since {α : Type} {n : Nat} {v u : Int} {s : Sch} {c : JCodec α} (h : LstC n v s c) :
    LstC n v (.since u s) c := by
  obtain ⟨I, hz, h⟩ := h
  refine ⟨I, hz, fun j old x hj hs hi hd => ?_⟩
  obtain ⟨hi, ho⟩ := h j old x hj hs.since hi hd
  exact ⟨hi, fun j hj => .since (ho j hj)⟩

theorem lst_option {α : Type} {n : Nat} {v : Int} {s : Sch} {c : JCodec α} (h : LstC n v s c) :
    LstC n v s (JCodec.option c) := by
  obtain ⟨I, hz, h⟩ := h
  refine ⟨fun o => ∀ a ∈ o, I a, by simp [JCodec.option], fun j old x hj hs hi hd => ?_⟩
  have hn : j ≠ .null := fun e => not_conforms_null (e ▸ hs.declared)
  rw [option_dec_ne_null c hn, Option.map_eq_some_iff] at hd
  obtain ⟨a, ha, rfl⟩ := hd
  have hi' : I (old.getD c.zero) := by
    cases old with
    | none => exact hz
    | some b => exact hi b rfl
  obtain ⟨hi, ho⟩ := h j _ a hj hs hi' ha
  exact ⟨fun b hb => by cases hb; exact hi, ho⟩

theorem decList_lst {α : Type} {n : Nat} {v : Int} {s : Sch} {c : JCodec α} {I : α → Prop} (hz : I c.zero)
    (h : ∀ j old x, j.depth < n → Proper v s j → I old → c.dec j old = some x → I x ∧ OutL v s c x) :
    ∀ (js : List Json) (olds xs : List α), (∀ j ∈ js, j.depth < n ∧ Proper v s j) → (∀ a ∈ olds, I a) →
      JCodec.decList c js olds = some xs → ∀ a ∈ xs, I a ∧ OutL v s c a
  | [], _, xs, _, _, hd => by
    simp only [JCodec.decList, Option.some.injEq] at hd
    subst hd
    simp
  | j :: js, olds, xs, hj, ho, hd => by
    simp only [JCodec.decList] at hd
    have hi : I (olds.headD c.zero) := by
      cases olds with
      | nil => exact hz
      | cons a _ => exact ho a List.mem_cons_self
    cases hc : c.dec j (olds.headD c.zero) with
    | none => rw [hc] at hd; cases hd
    | some a =>
      simp only [hc, Option.map_eq_some_iff] at hd
      obtain ⟨ys, hy, rfl⟩ := hd
      have h1 := hj j List.mem_cons_self
      have ih := decList_lst hz h js olds.tail ys (fun i hi => hj i (List.mem_cons_of_mem _ hi))
        (fun b hb => ho b (List.mem_of_mem_tail hb)) hy
      intro b hb
      cases hb with
      | head => exact h j _ a h1.1 h1.2 hi hc
      | tail _ hb => exact ih b hb

theorem outL_encList {α : Type} {v : Int} {s : Sch} {c : JCodec α} : ∀ {xs : List α} {js : List Json},
    (∀ a ∈ xs, OutL v s c a) → JCodec.encList c xs = some js → ∀ j ∈ js, HasListed v s j
  | [], js, _, h => by
    simp only [JCodec.encList, Option.some.injEq] at h
    subst h
    simp
  | x :: xs, js, hx, h => by
    simp only [JCodec.encList] at h
    cases hc : c.enc x with
    | none => simp [hc] at h
    | some j =>
      simp only [hc, Option.map_eq_some_iff] at h
      obtain ⟨js', h', rfl⟩ := h
      have ih := outL_encList (fun a ha => hx a (List.mem_cons_of_mem _ ha)) h'
      intro i hi
      cases hi with
      | head => exact hx x List.mem_cons_self j hc
      | tail _ hi => exact ih i hi

theorem lst_list {α : Type} {n : Nat} {v : Int} {s : Sch} {c : JCodec α} (h : LstC n v s c) :
    LstC n v (.list s) (JCodec.pslice c) := by
  obtain ⟨I, hz, h⟩ := h
  refine ⟨fun p => ∀ a ∈ p.elems, I a, by simp [JCodec.pslice, PSlice.elems], fun j old x hj hs hi hd => ?_⟩
  cases j with
  | arr js =>
    have hj : Json.depthL js + 1 < n := hj
    simp only [JCodec.pslice, Option.map_eq_some_iff] at hd
    obtain ⟨xs, hx, rfl⟩ := hd
    have := decList_lst hz h js old.elems xs
      (fun j hm => ⟨by have := depth_elem hm; omega, hs.elem j hm⟩) hi hx
    refine ⟨fun a ha => (this a ha).1, fun j hj => ?_⟩
    simp only [JCodec.pslice, Option.map_eq_some_iff] at hj
    obtain ⟨js', hj, rfl⟩ := hj
    exact .list (outL_encList (fun a ha => (this a ha).2) hj)
  | null => exact absurd hs.declared not_conforms_null
  | bool _ => cases hs.declared
  | num _ => cases hs.declared
  | str _ => cases hs.declared
  | obj _ => cases hs.declared

/-! ### Structs -/

theorem lstF_nil {n : Nat} {v : Int} {p : Place} {req : List String} : LstF n v p req .nil := by
  refine ⟨fun _ _ => True, trivial, fun _ _ _ _ _ => trivial, fun _ _ _ _ _ _ _ _ _ _ _ _ _ _ => trivial, ?_⟩
  intro b S ms _ _ h
  simp only [JFields.enc, Option.some.injEq] at h
  subst h
  simp

theorem lstF_skip {n : Nat} {v : Int} {p : Place} {req : List String} {α β : Type} {z : α} {F : JFields β}
    (h : LstF n v p req F) : LstF n v p req (.skip z F) := by
  obtain ⟨K, hz, hw, hs, ho⟩ := h
  refine ⟨fun b S => K b.2 S, hz, fun b S T => hw b.2 S T, ?_, fun b S ms => ho b.2 S ms⟩
  intro k s j b b' S hl hj hc hv hn hf hk hd
  simp only [JFields.set, Option.map_eq_some_iff] at hd
  obtain ⟨c, hd, rfl⟩ := hd
  exact hs k s j b.2 c S hl hj hc hv hn hf hk hd

/-- A field with an invariant `P` of its value that may depend on whether its member has been read. -/
theorem lstF_cons {n : Nat} {v : Int} {p : Place} {req : List String} {α β : Type} {k : String} {oe : Bool}
    {c : JCodec α} {F : JFields β} (P : α → Prop → Prop) (hz : P c.zero False)
    (hw : ∀ a S T, (T → S) → P a S → P a T)
    (hs : ∀ s j old x S, p.members.lookup k = some s → j.depth < n → Proper v s j →
      p.ListsValue v k j → P old S → c.dec j old = some x →
      P x True)
    (ho : ∀ a S, (k ∈ req → S) → P a S → (oe && c.empty a) = true ∨ ∀ j, c.enc a = some j → MemberL v p (k, j))
    (h : LstF n v p req F) : LstF n v p req (.field k oe c F) := by
  obtain ⟨K, kz, kw, ks, ko⟩ := h
  refine ⟨fun b S => P b.1 (S k) ∧ K b.2 S, ⟨hz, kz⟩, ?_, ?_, ?_⟩
  · intro b S T hT hk
    refine ⟨hw _ _ _ (hT k (by simp [JFields.names])) hk.1, kw _ S T (fun x hx => hT x ?_) hk.2⟩
    simp [JFields.names, hx]
  · intro m s j b b' S hl hj hc hv hn hf hk hd
    simp only [JFields.names, List.nodup_cons] at hn
    simp only [fieldFor, JFields.names, List.find?_cons] at hf
    by_cases e : foldKey m = foldKey k
    · simp only [e, decide_true, Option.some.injEq] at hf
      subst hf
      simp only [JFields.set, if_true, Option.map_eq_some_iff] at hd
      obtain ⟨x, hd, rfl⟩ := hd
      refine ⟨hw _ True _ (fun _ => trivial) (hs s j b.1 x (S k) hl hj hc hv hk.1 hd), kw _ S _ ?_ hk.2⟩
      rintro y hy (h | rfl)
      · exact h
      · exact absurd hy hn.1
    · simp only [e, decide_false] at hf
      simp only [JFields.set, e, if_false, Option.map_eq_some_iff] at hd
      obtain ⟨x, hd, rfl⟩ := hd
      refine ⟨hw _ (S k) _ ?_ hk.1, ks m s j b.2 x S hl hj hc hv hn.2 hf hk.2 hd⟩
      rintro (h | rfl)
      · exact h
      · exact absurd rfl e
  · intro b S ms hr hk he
    simp only [JFields.enc] at he
    rcases ho b.1 (S k) (hr k) hk.1 with h1 | h1
    · rw [if_pos h1] at he
      exact ko b.2 S ms hr hk.2 he
    · by_cases h2 : (oe && c.empty b.1) = true
      · rw [if_pos h2] at he
        exact ko b.2 S ms hr hk.2 he
      · rw [if_neg h2] at he
        cases hc : c.enc b.1 with
        | none => simp [hc] at he
        | some j =>
          simp only [hc, Option.map_eq_some_iff] at he
          obtain ⟨ms', hm, rfl⟩ := he
          intro m hm'
          cases hm' with
          | head => exact h1 j hc
          | tail _ hm' => exact ko b.2 S ms' hr hk.2 hm m hm'

/-- What is read of a member with enumerated strings is written with the same strings. -/
def Echo {α : Type} (v : Int) (s : Sch) (c : JCodec α) : Prop :=
  ∀ (p : Place) (k : String) (j : Json) (old x : α) (j' : Json), Conforms v s j → c.dec j old = some x →
    c.enc x = some j' → p.ListsValue v k j → p.ListsValue v k j'

theorem echo_string {v : Int} : Echo v .str JCodec.string := by
  intro p k j old x j' hc hd he hl
  obtain ⟨t, rfl⟩ := conforms_str.1 hc
  simp only [JCodec.string, Option.some.injEq] at hd he
  subst hd he
  exact hl
theorem echo_option {α : Type} {v : Int} {s : Sch} {c : JCodec α} (h : Echo v s c) : Echo v s (JCodec.option c) := by
  intro p k j old x j' hc hd he hl
  have hn : j ≠ .null := fun e => not_conforms_null (e ▸ hc)
  rw [option_dec_ne_null c hn, Option.map_eq_some_iff] at hd
  obtain ⟨a, ha, rfl⟩ := hd
  exact h p k j _ a j' hc ha he hl
theorem echo_since {α : Type} {v u : Int} {s : Sch} {c : JCodec α} (h : Echo v s c) : Echo v (.since u s) c :=
  fun p k j old x j' hc => h p k j old x j' (conforms_since.1 hc).2
theorem decList_strings : ∀ {js : List Json} {olds xs : List String}, (∀ j ∈ js, ∃ t, j = .str t) →
    JCodec.decList JCodec.string js olds = some xs → js = xs.map .str
  | [], _, xs, _, hd => by
    simp only [JCodec.decList, Option.some.injEq] at hd
    subst hd
    rfl
  | j :: js, olds, xs, hj, hd => by
    obtain ⟨t, rfl⟩ := hj j List.mem_cons_self
    simp only [JCodec.decList, JCodec.string, Option.map_eq_some_iff] at hd
    obtain ⟨ys, hy, rfl⟩ := hd
    rw [decList_strings (fun i hi => hj i (List.mem_cons_of_mem _ hi)) hy]
    rfl
theorem echo_list {v : Int} : Echo v (.list .str) (JCodec.pslice JCodec.string) := by
  intro p k j old x j' hc hd he hl
  obtain ⟨js, rfl⟩ := conforms_list_arr hc
  simp only [JCodec.pslice, Option.map_eq_some_iff] at hd
  obtain ⟨xs, hx, rfl⟩ := hd
  simp only [JCodec.pslice, Option.map_eq_some_iff] at he
  obtain ⟨js', he, rfl⟩ := he
  rw [enc_strings he, ← decList_strings (fun j hj => conforms_str.1 (conforms_list.1 hc j hj)) hx]
  exact hl

/-- A field without enumerations in it. -/
theorem lstF_free {n : Nat} {v : Int} {p : Place} {req : List String} {α β : Type} {k : String} {oe : Bool}
    {c : JCodec α} {F : JFields β} (he : p.enums.lookup k = none)
    (hp : (p.members.lookup k).all Sch.plain = true) (hF : LstF n v p req F) : LstF n v p req (.field k oe c F) := by
  refine lstF_cons (fun _ _ => True) trivial (fun _ _ _ _ => id) (fun _ _ _ _ _ _ _ _ _ _ _ => trivial) ?_ hF
  intro a S _ _
  refine .inr fun j hj => ⟨lists_none he j, fun s hs => listed_plain ?_ j⟩
  simp only at hs
  rw [hs] at hp
  exact hp

/-- A field without enumeration of its own that is left out, or written with enumerated strings, also when its member
has not been read. -/
theorem lstF_field {n : Nat} {v : Int} {p : Place} {req : List String} {α β : Type} {k : String} {oe : Bool}
    {c : JCodec α} {F : JFields β} (s : Sch) (hl : p.members.lookup k = some s) (he : p.enums.lookup k = none)
    (h : LstC n v s c) (hz : (oe && c.empty c.zero) = true ∨ OutL v s c c.zero) (hF : LstF n v p req F) :
    LstF n v p req (.field k oe c F) := by
  obtain ⟨I, iz, h⟩ := h
  refine lstF_cons (fun a _ => I a ∧ ((oe && c.empty a) = true ∨ OutL v s c a)) ⟨iz, hz⟩ (fun _ _ _ _ => id) ?_ ?_ hF
  · intro t j old x S ht hj hs _ hi hd
    rw [hl, Option.some.injEq] at ht
    subst ht
    obtain ⟨hi, ho⟩ := h j old x hj hs hi.1 hd
    exact ⟨hi, .inr ho⟩
  · rintro a S _ ⟨_, h | h⟩
    · exact .inl h
    · refine .inr fun j hj => ⟨lists_none he j, fun t ht => ?_⟩
      simp only [hl, Option.some.injEq] at ht
      subst ht
      exact h j hj

/-- The same for a member that is there. -/
theorem lstF_req {n : Nat} {v : Int} {p : Place} {req : List String} {α β : Type} {k : String} {oe : Bool}
    {c : JCodec α} {F : JFields β} (s : Sch) (hl : p.members.lookup k = some s) (he : p.enums.lookup k = none)
    (h : LstC n v s c) (hk : k ∈ req) (hF : LstF n v p req F) : LstF n v p req (.field k oe c F) := by
  obtain ⟨I, iz, h⟩ := h
  refine lstF_cons (fun a S => I a ∧ (S → OutL v s c a)) ⟨iz, False.elim⟩ (fun _ _ _ hT hp => ⟨hp.1, hp.2 ∘ hT⟩) ?_ ?_ hF
  · intro t j old x S ht hj hs _ hi hd
    rw [hl, Option.some.injEq] at ht
    subst ht
    obtain ⟨hi, ho⟩ := h j old x hj hs hi.1 hd
    exact ⟨hi, fun _ => ho⟩
  · rintro a S hr ⟨_, h⟩
    refine .inr fun j hj => ⟨lists_none he j, fun t ht => ?_⟩
    simp only [hl, Option.some.injEq] at ht
    subst ht
    exact h (hr hk) j hj

/-- A field with an enumeration that is left out when its member has not been read. -/
theorem lstF_enum {n : Nat} {v : Int} {p : Place} {req : List String} {α β : Type} {k : String} {oe : Bool}
    {c : JCodec α} {F : JFields β} (s : Sch) (hl : p.members.lookup k = some s) (hp : s.plain = true) (h : Echo v s c)
    (hz : (oe && c.empty c.zero) = true) (hF : LstF n v p req F) : LstF n v p req (.field k oe c F) := by
  refine lstF_cons (fun a _ => (oe && c.empty a) = true ∨ ∀ j, c.enc a = some j → p.ListsValue v k j) (.inl hz)
    (fun _ _ _ _ => id) ?_ ?_ hF
  · intro t j old x S ht hj hs hv _ hd
    rw [hl, Option.some.injEq] at ht
    subst ht
    exact .inr fun j' hj' => h p k j old x j' hs.declared hd hj' hv
  · rintro a S _ (h | h)
    · exact .inl h
    · refine .inr fun j hj => ⟨h j hj, fun t ht => listed_plain ?_ j⟩
      simp only [hl, Option.some.injEq] at ht
      subst ht
      exact hp

/-- A field with an enumeration whose member is there. -/
theorem lstF_enumReq {n : Nat} {v : Int} {p : Place} {req : List String} {α β : Type} {k : String} {oe : Bool}
    {c : JCodec α} {F : JFields β} (s : Sch) (hl : p.members.lookup k = some s) (hp : s.plain = true) (h : Echo v s c)
    (hk : k ∈ req) (hF : LstF n v p req F) : LstF n v p req (.field k oe c F) := by
  refine lstF_cons (fun a S => S → ∀ j, c.enc a = some j → p.ListsValue v k j) False.elim
    (fun _ _ _ hT hp t => hp (hT t)) ?_ ?_ hF
  · intro t j old x S ht hj hs hv _ hd
    rw [hl, Option.some.injEq] at ht
    subst ht
    exact fun _ j' hj' => h p k j old x j' hs.declared hd hj' hv
  · intro a S hr h
    refine .inr fun j hj => ⟨h (hr hk) j hj, fun t ht => listed_plain ?_ j⟩
    simp only [hl, Option.some.injEq] at ht
    subst ht
    exact hp

theorem decMembers_lst {n : Nat} {v : Int} {p : Place} {lost names : List String} {β : Type} {F : JFields β}
    {K : β → (String → Prop) → Prop} (hF : F.names = names) (hnd : names.Nodup)
    (hn : (p.members.all fun m => fieldFor names m.1 = if m.1 ∈ lost then none else some m.1) = true)
    (kw : ∀ b S T, (∀ k ∈ F.names, T k → S k) → K b S → K b T)
    (ks : ∀ k s j b b' S, p.members.lookup k = some s → j.depth < n → Proper v s j → p.ListsValue v k j → F.names.Nodup →
      fieldFor F.names k = some k → K b S → F.set k j b = some b' → K b' fun x => S x ∨ x = k) :
    ∀ (ms : List (String × Json)) (b b' : β) (S : String → Prop),
      (∀ m ∈ ms, m.2.depth < n ∧ p.ListsValue v m.1 m.2 ∧ ∃ s, p.members.lookup m.1 = some s ∧ Proper v s m.2) → K b S →
      F.decMembers ms b = some b' → K b' fun x => S x ∨ ∃ m ∈ ms, m.1 = x
  | [], b, b', S, _, hk, hd => by
    simp only [JFields.decMembers, Option.some.injEq] at hd
    subst hd
    exact kw _ S _ (by simp) hk
  | m :: ms, b, b', S, hm, hk, hd => by
    rw [decMembers_cons] at hd
    cases he : F.set m.1 m.2 b with
    | none => simp [he] at hd
    | some c =>
      rw [he, Option.bind_some] at hd
      obtain ⟨hj, hv, s, hl, hs⟩ := hm m List.mem_cons_self
      have hc : K c fun x => S x ∨ x = m.1 := by
        rw [List.all_eq_true] at hn
        have hf := hn _ (lookup_mem hl)
        simp only [decide_eq_true_eq] at hf
        by_cases e : m.1 ∈ lost
        · rw [if_pos e] at hf
          rw [set_unknown F b (by rw [hF]; exact hf), Option.some.injEq] at he
          subst he
          refine kw _ S _ ?_ hk
          rintro k hk (h | rfl)
          · exact h
          · rw [hF] at hk
            simp only [fieldFor, List.find?_eq_none, decide_eq_true_eq] at hf
            exact absurd rfl (hf _ hk)
        · rw [if_neg e] at hf
          exact ks m.1 s m.2 b c S hl hj hs hv (hF ▸ hnd) (by rw [hF]; exact hf) hk he
      have := decMembers_lst hF hnd hn kw ks ms c b' _ (fun i hi => hm i (List.mem_cons_of_mem _ hi)) hc hd
      refine kw _ _ _ ?_ this
      rintro k _ (h | ⟨i, hi, rfl⟩)
      · exact .inl (.inl h)
      · cases hi with
        | head => exact .inl (.inr rfl)
        | tail _ hi => exact .inr ⟨i, hi, rfl⟩

/-- `lost` are the members without a field, `req` members that the documents have, `D` what else is known of them. -/
theorem lst_structD {n : Nat} {v : Int} {p : Place} {σ β : Type} {F : JFields β} {toP : σ → β} {ofP : β → σ}
    (D : List (String × Json) → Prop) (req lost names : List String) (hP : ∀ b, toP (ofP b) = b)
    (hr : ∀ ms, Proper v (.place p) (.obj ms) → D ms → ∀ k ∈ req, ∃ m ∈ ms, m.1 = k)
    (hF : F.names = names) (hnd : names.Nodup)
    (hn : (p.members.all fun m => fieldFor names m.1 = if m.1 ∈ lost then none else some m.1) = true)
    (h : LstF n v p req F) : ∃ I : σ → Prop, I (ofP F.zero) ∧ ∀ ms old x, Json.depthM ms < n →
      Proper v (.place p) (.obj ms) → D ms → I old → (JCodec.struct F toP ofP).dec (.obj ms) old = some x →
        I x ∧ OutL v (.place p) (JCodec.struct F toP ofP) x := by
  obtain ⟨K, kz, kw, ks, ko⟩ := h
  refine ⟨fun x => K (toP x) fun _ => False, by simp only [hP]; exact kz, ?_⟩
  intro ms old x hj hs hD hi hd
  simp only [JCodec.struct, Option.map_eq_some_iff] at hd
  obtain ⟨b, hd, rfl⟩ := hd
  have hk' := decMembers_lst hF hnd hn kw ks ms _ b _
    (fun m hm => ⟨by have := depth_member hm; omega, hs.member m hm⟩) hi hd
  refine ⟨?_, ?_⟩
  · show K (toP (ofP b)) _
    rw [hP]; exact kw _ _ _ (fun _ _ h => h.elim) hk'
  · intro j hj
    simp only [JCodec.struct, hP, Option.map_eq_some_iff] at hj
    obtain ⟨ms', hm, rfl⟩ := hj
    rw [listed_place]
    exact ko b _ ms' (fun k hk => .inr (hr ms hs hD k hk)) hk' hm

theorem lst_struct' {n : Nat} {v : Int} {p : Place} {σ β : Type} {F : JFields β} {toP : σ → β} {ofP : β → σ}
    (req lost names : List String) (hP : ∀ b, toP (ofP b) = b)
    (hr : ∀ ms, Proper v (.place p) (.obj ms) → ∀ k ∈ req, ∃ m ∈ ms, m.1 = k)
    (hF : F.names = names) (hnd : names.Nodup)
    (hn : (p.members.all fun m => fieldFor names m.1 = if m.1 ∈ lost then none else some m.1) = true)
    (h : LstF n v p req F) : LstC (n + 1) v (.place p) (JCodec.struct F toP ofP) := by
  obtain ⟨I, iz, h⟩ := lst_structD (fun _ => True) req lost names hP (fun ms h _ => hr ms h) hF hnd hn h
  refine ⟨I, iz, fun j old x hj hs hi hd => ?_⟩
  obtain ⟨ms, rfl⟩ := conforms_place_obj hs.declared
  have hj : Json.depthM ms + 1 < n + 1 := hj
  exact h ms old x (by omega) hs trivial hi hd

theorem lst_struct {n : Nat} {v : Int} {p : Place} {σ β : Type} {F : JFields β} {toP : σ → β} {ofP : β → σ}
    (req lost names : List String) (hP : ∀ b, toP (ofP b) = b)
    (hr : ∀ ms, Proper v (.place p) (.obj ms) → ∀ k ∈ req, ∃ m ∈ ms, m.1 = k)
    (hF : F.names = names) (hnd : names.Nodup)
    (hn : (p.members.all fun m => fieldFor names m.1 = if m.1 ∈ lost then none else some m.1) = true)
    (h : LstF n v p req F) : LstC n v (.place p) (JCodec.struct F toP ofP) :=
  (lst_struct' req lost names hP hr hF hnd hn h).mono (Nat.le_succ n)

theorem needs_req {v : Int} {p : Place} {req : List String} (h : ∀ has, p.Needs v has → ∀ k ∈ req, has k) :
    ∀ ms, Proper v (.place p) (.obj ms) → ∀ k ∈ req, ∃ m ∈ ms, m.1 = k :=
  fun _ hs => h _ (required_place.1 hs.required).1

/-- What is peeked at is not empty only if it is there. -/
theorem peek_there {v : Int} {p : Place} {ms : List (String × Json)} {k t : String}
    (hc : Conforms v (.place p) (.obj ms)) (hp : (p.members.all fun m => decide (foldKey m.1 = foldKey k → m.1 = k)) = true)
    (h : (J.peek k).dec (.obj ms) "" = some t) (ht : t ≠ "") : ∃ m ∈ ms, m.1 = k := by
  refine Classical.byContradiction fun hn => ht ?_
  rw [peek_obj, selected_undeclared hc (fun m hm e => hn ⟨m, hm, e⟩) hp] at h
  simp only [JCodec.decAll, Option.some.injEq] at h
  exact h.symm

theorem decAll_string_ne : ∀ (js : List Json) (s t : String), (∀ j ∈ js, ∃ u, u ≠ "" ∧ j = .str u) →
    (s ≠ "" ∨ js ≠ []) → JCodec.string.decAll js s = some t → t ≠ ""
  | [], s, t, _, h, hd => by
    simp only [JCodec.decAll, Option.some.injEq] at hd
    subst hd
    simpa using h
  | j :: js, s, t, hj, _, hd => by
    obtain ⟨u, hu, rfl⟩ := hj j List.mem_cons_self
    simp only [JCodec.decAll, JCodec.string] at hd
    exact decAll_string_ne js u t (fun i hi => hj i (List.mem_cons_of_mem _ hi)) (.inl hu) hd

end

variable [FloatIO]

