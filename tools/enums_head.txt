import Verif.Spec.JsonEnums
import Verif.Json.RequiredLaws

/-!
# Which values are written with enumerated strings only

GENERATED by `tools/gen_jenums.py`; do not edit by hand.  `EnumC v s c x Q`: when the codec `c` writes `x`, the strings
in what it writes are among those that version `v` enumerates, where `s` is declared, exactly if `Q`.  For every type, at
the place the schema has for it, `Q` is `T.Listed v`.
-/

namespace Verif

set_option linter.unusedSectionVars false
set_option linter.unusedSimpArgs false

theorem listed_list {v : Int} {s : Sch} {js : List Json} :
    HasListed v (.list s) (.arr js) ↔ ∀ j ∈ js, HasListed v s j := by
  refine ⟨fun h => ?_, .list⟩
  cases h with
  | list h => exact h
  | noList h => exact absurd rfl (h js)
theorem listed_alt {v : Int} {s t : Sch} {j : Json} :
    HasListed v (.alt s t) j ↔ HasListed v s j ∧ HasListed v t j :=
  ⟨fun h => by cases h; constructor <;> assumption, fun h => .alt h.1 h.2⟩
theorem listed_since {v n : Int} {s : Sch} {j : Json} : HasListed v (.since n s) j ↔ HasListed v s j :=
  ⟨fun h => by cases h; assumption, .since⟩
theorem listed_place {v : Int} {p : Place} {ms : List (String × Json)} :
    HasListed v (.place p) (.obj ms) ↔
      ∀ m ∈ ms, p.ListsValue v m.1 m.2 ∧ ∀ s, p.members.lookup m.1 = some s → HasListed v s m.2 := by
  refine ⟨fun h => ?_, fun h => .place (fun m hm => (h m hm).1) (fun m hm => (h m hm).2)⟩
  cases h with
  | place h1 h2 => exact fun m hm => ⟨h1 m hm, h2 m hm⟩
  | noPlace h => exact absurd rfl (h ms)
theorem listed_null {v : Int} : ∀ s : Sch, HasListed v s .null
  | .str => .str _
  | .num => .num _
  | .int => .int _
  | .bool => .bool _
  | .list _ => .noList (by simp)
  | .place _ => .noPlace (by simp)
  | .alt s t => .alt (listed_null s) (listed_null t)
  | .since _ s => .since (listed_null s)
theorem listed_list_obj {v : Int} {s : Sch} {ms : List (String × Json)} : HasListed v (.list s) (.obj ms) :=
  .noList (by simp)
theorem listed_place_arr {v : Int} {p : Place} {js : List Json} : HasListed v (.place p) (.arr js) :=
  .noPlace (by simp)
theorem listed_place_str {v : Int} {p : Place} {t : String} : HasListed v (.place p) (.str t) :=
  .noPlace (by simp)

theorem listed_plain {v : Int} : ∀ {s : Sch}, s.plain = true → ∀ j, HasListed v s j
  | .str, _, j => .str j
  | .num, _, j => .num j
  | .int, _, j => .int j
  | .bool, _, j => .bool j
  | .list s, h, j => by
    have ih := listed_plain (v := v) (s := s) h
    cases j with
    | arr js => exact .list fun j _ => ih j
    | _ => exact .noList (by simp)
  | .place _, h, _ => by cases h
  | .alt s t, h, j => by
    simp only [Sch.plain, Bool.and_eq_true] at h
    exact .alt (listed_plain h.1 j) (listed_plain h.2 j)
  | .since _ s, h, j => .since (listed_plain (s := s) h j)

theorem lists_none {v : Int} {p : Place} {k : String} (h : p.enums.lookup k = none) (j : Json) : p.ListsValue v k j := by
  have : ∀ s, p.Lists v k s := by
    intro s gs hg
    rw [h] at hg
    cases hg
  cases j with
  | str s => exact this s
  | arr js => exact fun s _ => this s
  | _ => trivial

/-- When `c` writes `a`, the strings in what it writes are enumerated exactly if `Q`. -/
def EnumC {α : Type} (v : Int) (s : Sch) (c : JCodec α) (a : α) (Q : Prop) : Prop :=
  ∀ j, c.enc a = some j → (HasListed v s j ↔ Q)

/-- When the fields are written, the strings of every member are enumerated exactly if `Q`. -/
def EnumF {β : Type} (v : Int) (p : Place) (F : JFields β) (b : β) (Q : Prop) : Prop :=
  ∀ ms, F.enc b = some ms →
    ((∀ m ∈ ms, p.ListsValue v m.1 m.2 ∧ ∀ s, p.members.lookup m.1 = some s → HasListed v s m.2) ↔ Q)

/-- One field: it is dropped and `Q` holds, or the strings in what is written are enumerated exactly if `Q`. -/
def FieldEnum {α : Type} (v : Int) (s : Option Sch) (oe : Bool) (c : JCodec α) (a : α) (Q : Prop) : Prop :=
  if oe && c.empty a then Q else ∀ j, c.enc a = some j → ((∀ t, s = some t → HasListed v t j) ↔ Q)

/-- One field at which strings are enumerated. -/
def FieldLists {α : Type} (v : Int) (p : Place) (n : String) (oe : Bool) (c : JCodec α) (a : α) (Q : Prop) : Prop :=
  if oe && c.empty a then Q else ∀ j, c.enc a = some j → (p.ListsValue v n j ↔ Q)

theorem EnumC.congr {α : Type} {v : Int} {s : Sch} {c : JCodec α} {a : α} {P Q : Prop} (h : EnumC v s c a P)
    (e : P ↔ Q) : EnumC v s c a Q := fun j hj => (h j hj).trans e

theorem enumF_nil {v : Int} {p : Place} {b : Unit} : EnumF v p .nil b True := by
  intro ms h
  simp only [JFields.enc, Option.some.injEq] at h
  subst h
  simp

theorem enumF_skip {v : Int} {p : Place} {α β : Type} {z : α} {F : JFields β} {b : α × β} {Q : Prop}
    (h : EnumF v p F b.2 Q) : EnumF v p (.skip z F) b Q := h

theorem enumF_any {v : Int} {p : Place} {α β : Type} {n : String} {oe : Bool} {c : JCodec α} {F : JFields β}
    {b : α × β} {P Q : Prop} (h0 : (oe && c.empty b.1) = true → P)
    (h1 : (oe && c.empty b.1) ≠ true → ∀ j, c.enc b.1 = some j →
      ((p.ListsValue v n j ∧ ∀ s, p.members.lookup n = some s → HasListed v s j) ↔ P))
    (h2 : EnumF v p F b.2 Q) : EnumF v p (.field n oe c F) b (P ∧ Q) := by
  intro ms h
  simp only [JFields.enc] at h
  by_cases he : (oe && c.empty b.1) = true
  · rw [if_pos he] at h
    rw [h2 ms h]
    exact ⟨fun hq => ⟨h0 he, hq⟩, And.right⟩
  · rw [if_neg he] at h
    cases hc : c.enc b.1 with
    | none => simp [hc] at h
    | some j =>
      simp only [hc, Option.map_eq_some_iff] at h
      obtain ⟨ms', hm, rfl⟩ := h
      rw [← h1 he j hc, ← h2 ms' hm]
      simp only [List.mem_cons, forall_eq_or_imp]

theorem enumF_field {v : Int} {p : Place} {α β : Type} {n : String} {oe : Bool} {c : JCodec α} {F : JFields β}
    {b : α × β} {P Q : Prop} (s : Option Sch) (hs : p.members.lookup n = s) (hn : p.enums.lookup n = none)
    (h1 : FieldEnum v s oe c b.1 P) (h2 : EnumF v p F b.2 Q) : EnumF v p (.field n oe c F) b (P ∧ Q) := by
  refine enumF_any (fun he => ?_) (fun he j hj => ?_) h2
  · rwa [FieldEnum, if_pos he] at h1
  · rw [FieldEnum, if_neg he] at h1
    rw [← h1 j hj, hs]
    exact and_iff_right (lists_none hn j)

theorem enumF_plain {v : Int} {p : Place} {α β : Type} {n : String} {oe : Bool} {c : JCodec α} {F : JFields β}
    {b : α × β} {Q : Prop} (s : Option Sch) (hs : p.members.lookup n = s) (hn : p.enums.lookup n = none)
    (h1 : FieldEnum v s oe c b.1 True) (h2 : EnumF v p F b.2 Q) : EnumF v p (.field n oe c F) b Q := by
  have := enumF_field s hs hn h1 h2
  rwa [true_and] at this

theorem enumF_enum {v : Int} {p : Place} {α β : Type} {n : String} {oe : Bool} {c : JCodec α} {F : JFields β}
    {b : α × β} {P Q : Prop} (s : Sch) (hs : p.members.lookup n = some s) (hp : s.plain = true)
    (h1 : FieldLists v p n oe c b.1 P) (h2 : EnumF v p F b.2 Q) : EnumF v p (.field n oe c F) b (P ∧ Q) := by
  refine enumF_any (fun he => ?_) (fun he j hj => ?_) h2
  · rwa [FieldLists, if_pos he] at h1
  · rw [FieldLists, if_neg he] at h1
    rw [← h1 j hj, hs]
    refine and_iff_left ?_
    intro t ht
    cases ht
    exact listed_plain hp j

theorem enum_struct {v : Int} {p : Place} {σ β : Type} {F : JFields β} {toP : σ → β} {ofP : β → σ} {x : σ}
    {Q : Prop} (h : EnumF v p F (toP x) Q) : EnumC v (.place p) (JCodec.struct F toP ofP) x Q := by
  intro j hj
  simp only [JCodec.struct, Option.map_eq_some_iff] at hj
  obtain ⟨ms, hm, rfl⟩ := hj
  rw [listed_place, h ms hm]

/-! ### Fields -/

theorem el_string {v : Int} {p : Place} {n : String} {a : String} :
    FieldLists v p n false JCodec.string a (p.Lists v n a) := by
  simp [FieldLists, JCodec.string, Place.ListsValue]

theorem el_string_oe {v : Int} {p : Place} {n : String} {a : String} :
    FieldLists v p n true JCodec.string a (a ≠ "" → p.Lists v n a) := by
  simp only [FieldLists, JCodec.string, Bool.true_and, decide_eq_true_eq]
  split
  · rename_i h
    exact fun h' => absurd h h'
  · rename_i h
    intro j hj
    cases hj
    simp [Place.ListsValue, h]

theorem el_opt {v : Int} {p : Place} {n : String} {oe : Bool} {a : Option String} :
    FieldLists v p n oe (JCodec.option JCodec.string) a (∀ y ∈ a, p.Lists v n y) := by
  simp only [FieldLists]
  split
  · rename_i h
    cases a <;> simp_all [JCodec.option]
  · intro j hj
    cases a <;> cases hj <;> simp [Place.ListsValue]

theorem enc_strings : ∀ {xs : List String} {js : List Json}, JCodec.encList JCodec.string xs = some js →
    js = xs.map .str
  | [], js, h => by cases h; rfl
  | x :: xs, js, h => by
    simp only [JCodec.encList, JCodec.string, Option.map_eq_some_iff] at h
    obtain ⟨js', h', rfl⟩ := h
    rw [enc_strings h']
    rfl

theorem el_list {v : Int} {p : Place} {n : String} {oe : Bool} {a : PSlice String} :
    FieldLists v p n oe (JCodec.pslice JCodec.string) a (∀ y ∈ a.elems, p.Lists v n y) := by
  simp only [FieldLists]
  split
  · rename_i h
    cases a <;> simp_all [JCodec.pslice, PSlice.isNil, PSlice.elems]
  · intro j hj
    cases a with
    | list xs =>
      simp only [JCodec.pslice, Option.map_eq_some_iff] at hj
      obtain ⟨js, h', rfl⟩ := hj
      rw [enc_strings h']
      simp [Place.ListsValue, PSlice.elems]
    | _ => cases hj; simp [Place.ListsValue, PSlice.elems]

theorem ef_none {v : Int} {α : Type} {oe : Bool} {c : JCodec α} {a : α} : FieldEnum v none oe c a True := by
  simp [FieldEnum]

theorem ef_plain {v : Int} {α : Type} {oe : Bool} {s : Sch} {c : JCodec α} {a : α} (h : s.plain = true) :
    FieldEnum v (some s) oe c a True := by
  simp only [FieldEnum]
  split
  · trivial
  · intro j _
    simp [listed_plain h j]

theorem ef_since {v n : Int} {α : Type} {oe : Bool} {s : Sch} {c : JCodec α} {a : α} {P : Prop}
    (h : FieldEnum v (some s) oe c a P) : FieldEnum v (some (.since n s)) oe c a P := by
  simp only [FieldEnum] at h ⊢
  split
  · rwa [if_pos (by assumption)] at h
  · rw [if_neg (by assumption)] at h
    intro j hj
    rw [← h j hj]
    simp [listed_since]

theorem ef_val {v : Int} {σ β : Type} {oe : Bool} {s : Sch} {F : JFields β} {toP : σ → β} {ofP : β → σ} {x : σ}
    {P : Prop} (h : EnumC v s (JCodec.struct F toP ofP) x P) :
    FieldEnum v (some s) oe (JCodec.struct F toP ofP) x P := by
  simp only [FieldEnum, JCodec.struct, Bool.and_false, Bool.false_eq_true, if_false]
  intro j hj
  simpa using h j hj

theorem ef_opt {v : Int} {α : Type} {oe : Bool} {s : Sch} {c : JCodec α} {o : Option α} {P : α → Prop}
    (h : ∀ a ∈ o, EnumC v s c a (P a)) : FieldEnum v (some s) oe (JCodec.option c) o (∀ a ∈ o, P a) := by
  cases o with
  | none =>
    simp only [FieldEnum]
    split
    · simp
    · intro j hj
      simp only [JCodec.option, Option.some.injEq] at hj
      subst hj
      simp [listed_null]
  | some a =>
    simp only [FieldEnum, JCodec.option, Option.isNone_some, Bool.and_false, Bool.false_eq_true, if_false]
    intro j hj
    simpa using h a rfl j hj

theorem ef_opt_true {v : Int} {α : Type} {oe : Bool} {s : Sch} {c : JCodec α} {o : Option α}
    (h : ∀ a ∈ o, EnumC v s c a True) : FieldEnum v (some s) oe (JCodec.option c) o True := by
  have := ef_opt (oe := oe) (P := fun _ => True) h
  simpa using this

theorem enumC_encList {v : Int} {α : Type} {s : Sch} {c : JCodec α} {P : α → Prop} : ∀ {xs : List α} {js : List Json},
    (∀ a ∈ xs, EnumC v s c a (P a)) → JCodec.encList c xs = some js →
    ((∀ j ∈ js, HasListed v s j) ↔ ∀ a ∈ xs, P a)
  | [], js, _, h => by
    simp only [JCodec.encList, Option.some.injEq] at h
    subst h
    simp
  | x :: xs, js, hx, h => by
    simp only [JCodec.encList] at h
    cases hc : c.enc x with
    | none => simp [hc] at h
    | some j =>
      simp only [hc, Option.map_eq_some_iff] at h
      obtain ⟨js', h', rfl⟩ := h
      have ih := enumC_encList (fun a ha => hx a (List.mem_cons_of_mem _ ha)) h'
      simp only [List.mem_cons, forall_eq_or_imp, ih, hx x (by simp) j hc]

theorem enum_list {v : Int} {α : Type} {s : Sch} {c : JCodec α} {p : PSlice α} {P : α → Prop}
    (h : ∀ a ∈ p.elems, EnumC v s c a (P a)) : EnumC v (.list s) (JCodec.pslice c) p (∀ a ∈ p.elems, P a) := by
  intro j hj
  cases p with
  | nil =>
    simp only [JCodec.pslice, Option.some.injEq] at hj
    subst hj
    simp [listed_null, PSlice.elems]
  | nilSlice =>
    simp only [JCodec.pslice, Option.some.injEq] at hj
    subst hj
    simp [listed_null, PSlice.elems]
  | list xs =>
    simp only [JCodec.pslice, Option.map_eq_some_iff] at hj
    obtain ⟨js, h', rfl⟩ := hj
    simp only [PSlice.elems] at h ⊢
    rw [listed_list, enumC_encList h h']

theorem ef_list {v : Int} {α : Type} {oe : Bool} {s : Sch} {c : JCodec α} {p : PSlice α} {P : α → Prop}
    (h : ∀ a ∈ p.elems, EnumC v s c a (P a)) :
    FieldEnum v (some (.list s)) oe (JCodec.pslice c) p (∀ a ∈ p.elems, P a) := by
  simp only [FieldEnum]
  split
  · rename_i he
    rw [Bool.and_eq_true] at he
    cases p <;> simp_all [JCodec.pslice, PSlice.isNil, PSlice.elems]
  · intro j hj
    simpa using enum_list h j hj

theorem ef_list_true {v : Int} {α : Type} {oe : Bool} {s : Sch} {c : JCodec α} {p : PSlice α}
    (h : ∀ a ∈ p.elems, EnumC v s c a True) : FieldEnum v (some (.list s)) oe (JCodec.pslice c) p True := by
  have := ef_list (oe := oe) (P := fun _ => True) h
  simpa using this

variable [FloatIO]

theorem SameAt.enumC {v : Int} {s : Sch} {α : Type} {C D : JCodec α} {a : α} {Q : Prop} (h : SameAt C D a)
    (hD : EnumC v s D a Q) : EnumC v s C a Q := fun j hj => hD j (h.enc ▸ hj)

theorem enum_ike {v : Int} {σ : Type} {S : JCodec σ} {get : σ → BOMReference}
    {put : σ → BOMReference → σ} {x : σ} {n : Int} {p : Place} (h : EnumC v (.place p) S x True) :
    EnumC v (.alt .str (.since n (.place p))) (J.ikev2 S get put) x True := by
  intro j hj
  rw [listed_alt, listed_since]
  simp only [J.ikev2] at hj
  split at hj
  · simp only [Option.some.injEq] at hj
    subst hj
    exact iff_true_intro ⟨.str _, listed_place_str⟩
  · exact iff_true_intro ⟨.str _, (h j hj).2 trivial⟩

omit [FloatIO] in
theorem listedComponentList_iff {v : Int} (xs : List Component) :
    ListedComponentList v xs ↔ ∀ c ∈ xs, c.Listed v := by
  induction xs with
  | nil => simp [ListedComponentList]
  | cons x xs ih => simp [ListedComponentList, ih]
omit [FloatIO] in
theorem listedComponents_iff {v : Int} (p : PSlice Component) :
    ListedComponents v p ↔ ∀ c ∈ p.elems, c.Listed v := by
  cases p <;> simp [ListedComponents, PSlice.elems, listedComponentList_iff]
omit [FloatIO] in
theorem listedPedigreeOpt_iff {v : Int} (o : Option (Pedigree Component)) :
    ListedPedigreeOpt v o ↔ ∀ p ∈ o, ListedPedigree v p := by
  cases o <;> simp [ListedPedigreeOpt]
omit [FloatIO] in
theorem listedServiceList_iff {v : Int} (xs : List Service) : ListedServiceList v xs ↔ ∀ c ∈ xs, c.Listed v := by
  induction xs with
  | nil => simp [ListedServiceList]
  | cons x xs ih => simp [ListedServiceList, ih]
omit [FloatIO] in
theorem listedServices_iff {v : Int} (p : PSlice Service) :
    ListedServices v p ↔ ∀ c ∈ p.elems, c.Listed v := by
  cases p <;> simp [ListedServices, PSlice.elems, listedServiceList_iff]

