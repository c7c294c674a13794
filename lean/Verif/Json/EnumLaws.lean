import Verif.Spec.JsonEnums
import Verif.Json.RequiredLaws

/-!
# Which values are written with enumerated strings only

GENERATED by `tools/gen_jenums.py`; do not edit by hand.  `EnumC v s c x Q`: when the codec `c` writes `x`, the strings
in what it writes are among those that version `v` enumerates, where `s` is declared, exactly if `Q`.  For every type, at
the place the schema has for it, `Q` is `T.Listed v`.
-/

namespace Verif

set_option linter.unusedSectionVars false
set_option linter.unusedSimpArgs false

theorem listed_list {v : Int} {s : Sch} {js : List Json} :
    HasListed v (.list s) (.arr js) ↔ ∀ j ∈ js, HasListed v s j := by
  refine ⟨fun h => ?_, .list⟩
  cases h with
  | list h => exact h
  | noList h => exact absurd rfl (h js)
theorem listed_alt {v : Int} {s t : Sch} {j : Json} :
    HasListed v (.alt s t) j ↔ HasListed v s j ∧ HasListed v t j :=
  ⟨fun h => by cases h; constructor <;> assumption, fun h => .alt h.1 h.2⟩
theorem listed_since {v n : Int} {s : Sch} {j : Json} : HasListed v (.since n s) j ↔ HasListed v s j :=
  ⟨fun h => by cases h; assumption, .since⟩
theorem listed_place {v : Int} {p : Place} {ms : List (String × Json)} :
    HasListed v (.place p) (.obj ms) ↔
      ∀ m ∈ ms, p.ListsValue v m.1 m.2 ∧ ∀ s, p.members.lookup m.1 = some s → HasListed v s m.2 := by
  refine ⟨fun h => ?_, fun h => .place (fun m hm => (h m hm).1) (fun m hm => (h m hm).2)⟩
  cases h with
  | place h1 h2 => exact fun m hm => ⟨h1 m hm, h2 m hm⟩
  | noPlace h => exact absurd rfl (h ms)
theorem listed_null {v : Int} : ∀ s : Sch, HasListed v s .null
  | .str => .str _
  | .num => .num _
  | .int => .int _
  | .bool => .bool _
  | .list _ => .noList (by simp)
  | .place _ => .noPlace (by simp)
  | .alt s t => .alt (listed_null s) (listed_null t)
  | .since _ s => .since (listed_null s)
theorem listed_list_obj {v : Int} {s : Sch} {ms : List (String × Json)} : HasListed v (.list s) (.obj ms) :=
  .noList (by simp)
theorem listed_place_arr {v : Int} {p : Place} {js : List Json} : HasListed v (.place p) (.arr js) :=
  .noPlace (by simp)
theorem listed_place_str {v : Int} {p : Place} {t : String} : HasListed v (.place p) (.str t) :=
  .noPlace (by simp)

theorem listed_plain {v : Int} : ∀ {s : Sch}, s.plain = true → ∀ j, HasListed v s j
  | .str, _, j => .str j
  | .num, _, j => .num j
  | .int, _, j => .int j
  | .bool, _, j => .bool j
  | .list s, h, j => by
    have ih := listed_plain (v := v) (s := s) h
    cases j with
    | arr js => exact .list fun j _ => ih j
    | _ => exact .noList (by simp)
  | .place _, h, _ => by cases h
  | .alt s t, h, j => by
    simp only [Sch.plain, Bool.and_eq_true] at h
    exact .alt (listed_plain h.1 j) (listed_plain h.2 j)
  | .since _ s, h, j => .since (listed_plain (s := s) h j)

theorem lists_none {v : Int} {p : Place} {k : String} (h : p.enums.lookup k = none) (j : Json) : p.ListsValue v k j := by
  have : ∀ s, p.Lists v k s := by
    intro s gs hg
    rw [h] at hg
    cases hg
  cases j with
  | str s => exact this s
  | arr js => exact fun s _ => this s
  | _ => trivial

/-- When `c` writes `a`, the strings in what it writes are enumerated exactly if `Q`. -/
def EnumC {α : Type} (v : Int) (s : Sch) (c : JCodec α) (a : α) (Q : Prop) : Prop :=
  ∀ j, c.enc a = some j → (HasListed v s j ↔ Q)

/-- When the fields are written, the strings of every member are enumerated exactly if `Q`. -/
def EnumF {β : Type} (v : Int) (p : Place) (F : JFields β) (b : β) (Q : Prop) : Prop :=
  ∀ ms, F.enc b = some ms →
    ((∀ m ∈ ms, p.ListsValue v m.1 m.2 ∧ ∀ s, p.members.lookup m.1 = some s → HasListed v s m.2) ↔ Q)

/-- One field: it is dropped and `Q` holds, or the strings in what is written are enumerated exactly if `Q`. -/
def FieldEnum {α : Type} (v : Int) (s : Option Sch) (oe : Bool) (c : JCodec α) (a : α) (Q : Prop) : Prop :=
  if oe && c.empty a then Q else ∀ j, c.enc a = some j → ((∀ t, s = some t → HasListed v t j) ↔ Q)

/-- One field at which strings are enumerated. -/
def FieldLists {α : Type} (v : Int) (p : Place) (n : String) (oe : Bool) (c : JCodec α) (a : α) (Q : Prop) : Prop :=
  if oe && c.empty a then Q else ∀ j, c.enc a = some j → (p.ListsValue v n j ↔ Q)

theorem EnumC.congr {α : Type} {v : Int} {s : Sch} {c : JCodec α} {a : α} {P Q : Prop} (h : EnumC v s c a P)
    (e : P ↔ Q) : EnumC v s c a Q := fun j hj => (h j hj).trans e

theorem enumF_nil {v : Int} {p : Place} {b : Unit} : EnumF v p .nil b True := by
  intro ms h
  simp only [JFields.enc, Option.some.injEq] at h
  subst h
  simp

theorem enumF_skip {v : Int} {p : Place} {α β : Type} {z : α} {F : JFields β} {b : α × β} {Q : Prop}
    (h : EnumF v p F b.2 Q) : EnumF v p (.skip z F) b Q := h

theorem enumF_any {v : Int} {p : Place} {α β : Type} {n : String} {oe : Bool} {c : JCodec α} {F : JFields β}
    {b : α × β} {P Q : Prop} (h0 : (oe && c.empty b.1) = true → P)
    (h1 : (oe && c.empty b.1) ≠ true → ∀ j, c.enc b.1 = some j →
      ((p.ListsValue v n j ∧ ∀ s, p.members.lookup n = some s → HasListed v s j) ↔ P))
    (h2 : EnumF v p F b.2 Q) : EnumF v p (.field n oe c F) b (P ∧ Q) := by
  intro ms h
  simp only [JFields.enc] at h
  by_cases he : (oe && c.empty b.1) = true
  · rw [if_pos he] at h
    rw [h2 ms h]
    exact ⟨fun hq => ⟨h0 he, hq⟩, And.right⟩
  · rw [if_neg he] at h
    cases hc : c.enc b.1 with
    | none => simp [hc] at h
    | some j =>
      simp only [hc, Option.map_eq_some_iff] at h
      obtain ⟨ms', hm, rfl⟩ := h
      rw [← h1 he j hc, ← h2 ms' hm]
      simp only [List.mem_cons, forall_eq_or_imp]

theorem enumF_field {v : Int} {p : Place} {α β : Type} {n : String} {oe : Bool} {c : JCodec α} {F : JFields β}
    {b : α × β} {P Q : Prop} (s : Option Sch) (hs : p.members.lookup n = s) (hn : p.enums.lookup n = none)
    (h1 : FieldEnum v s oe c b.1 P) (h2 : EnumF v p F b.2 Q) : EnumF v p (.field n oe c F) b (P ∧ Q) := by
  refine enumF_any (fun he => ?_) (fun he j hj => ?_) h2
  · rwa [FieldEnum, if_pos he] at h1
  · rw [FieldEnum, if_neg he] at h1
    rw [← h1 j hj, hs]
    exact and_iff_right (lists_none hn j)

theorem enumF_plain {v : Int} {p : Place} {α β : Type} {n : String} {oe : Bool} {c : JCodec α} {F : JFields β}
    {b : α × β} {Q : Prop} (s : Option Sch) (hs : p.members.lookup n = s) (hn : p.enums.lookup n = none)
    (h1 : FieldEnum v s oe c b.1 True) (h2 : EnumF v p F b.2 Q) : EnumF v p (.field n oe c F) b Q := by
  have := enumF_field s hs hn h1 h2
  rwa [true_and] at this

theorem enumF_enum {v : Int} {p : Place} {α β : Type} {n : String} {oe : Bool} {c : JCodec α} {F : JFields β}
    {b : α × β} {P Q : Prop} (s : Sch) (hs : p.members.lookup n = some s) (hp : s.plain = true)
    (h1 : FieldLists v p n oe c b.1 P) (h2 : EnumF v p F b.2 Q) : EnumF v p (.field n oe c F) b (P ∧ Q) := by
  refine enumF_any (fun he => ?_) (fun he j hj => ?_) h2
  · rwa [FieldLists, if_pos he] at h1
  · rw [FieldLists, if_neg he] at h1
    rw [← h1 j hj, hs]
    refine and_iff_left ?_
    intro t ht
    cases ht
    exact listed_plain hp j

theorem enum_struct {v : Int} {p : Place} {σ β : Type} {F : JFields β} {toP : σ → β} {ofP : β → σ} {x : σ}
    {Q : Prop} (h : EnumF v p F (toP x) Q) : EnumC v (.place p) (JCodec.struct F toP ofP) x Q := by
  intro j hj
  simp only [JCodec.struct, Option.map_eq_some_iff] at hj
  obtain ⟨ms, hm, rfl⟩ := hj
  rw [listed_place, h ms hm]

/-! ### Fields -/

theorem el_string {v : Int} {p : Place} {n : String} {a : String} :
    FieldLists v p n false JCodec.string a (p.Lists v n a) := by
  simp [FieldLists, JCodec.string, Place.ListsValue]

theorem el_string_oe {v : Int} {p : Place} {n : String} {a : String} :
    FieldLists v p n true JCodec.string a (a ≠ "" → p.Lists v n a) := by
  simp only [FieldLists, JCodec.string, Bool.true_and, decide_eq_true_eq]
  split
  · rename_i h
    exact fun h' => absurd h h'
  · rename_i h
    intro j hj
    cases hj
    simp [Place.ListsValue, h]

theorem el_opt {v : Int} {p : Place} {n : String} {oe : Bool} {a : Option String} :
    FieldLists v p n oe (JCodec.option JCodec.string) a (∀ y ∈ a, p.Lists v n y) := by
  simp only [FieldLists]
  split
  · rename_i h
    cases a <;> simp_all [JCodec.option]
  · intro j hj
    cases a <;> cases hj <;> simp [Place.ListsValue]

theorem enc_strings : ∀ {xs : List String} {js : List Json}, JCodec.encList JCodec.string xs = some js →
    js = xs.map .str
  | [], js, h => by cases h; rfl
  | x :: xs, js, h => by
    simp only [JCodec.encList, JCodec.string, Option.map_eq_some_iff] at h
    obtain ⟨js', h', rfl⟩ := h
    rw [enc_strings h']
    rfl

theorem el_list {v : Int} {p : Place} {n : String} {oe : Bool} {a : PSlice String} :
    FieldLists v p n oe (JCodec.pslice JCodec.string) a (∀ y ∈ a.elems, p.Lists v n y) := by
  simp only [FieldLists]
  split
  · rename_i h
    cases a <;> simp_all [JCodec.pslice, PSlice.isNil, PSlice.elems]
  · intro j hj
    cases a with
    | list xs =>
      simp only [JCodec.pslice, Option.map_eq_some_iff] at hj
      obtain ⟨js, h', rfl⟩ := hj
      rw [enc_strings h']
      simp [Place.ListsValue, PSlice.elems]
    | _ => cases hj; simp [Place.ListsValue, PSlice.elems]

theorem ef_none {v : Int} {α : Type} {oe : Bool} {c : JCodec α} {a : α} : FieldEnum v none oe c a True := by
  simp [FieldEnum]

theorem ef_plain {v : Int} {α : Type} {oe : Bool} {s : Sch} {c : JCodec α} {a : α} (h : s.plain = true) :
    FieldEnum v (some s) oe c a True := by
  simp only [FieldEnum]
  split
  · trivial
  · intro j _
    simp [listed_plain h j]

theorem ef_since {v n : Int} {α : Type} {oe : Bool} {s : Sch} {c : JCodec α} {a : α} {P : Prop}
    (h : FieldEnum v (some s) oe c a P) : FieldEnum v (some (.since n s)) oe c a P := by
  simp only [FieldEnum] at h ⊢
  split
  · rwa [if_pos (by assumption)] at h
  · rw [if_neg (by assumption)] at h
    intro j hj
    rw [← h j hj]
    simp [listed_since]

theorem ef_val {v : Int} {σ β : Type} {oe : Bool} {s : Sch} {F : JFields β} {toP : σ → β} {ofP : β → σ} {x : σ}
    {P : Prop} (h : EnumC v s (JCodec.struct F toP ofP) x P) :
    FieldEnum v (some s) oe (JCodec.struct F toP ofP) x P := by
  simp only [FieldEnum, JCodec.struct, Bool.and_false, Bool.false_eq_true, if_false]
  intro j hj
  simpa using h j hj

theorem ef_opt {v : Int} {α : Type} {oe : Bool} {s : Sch} {c : JCodec α} {o : Option α} {P : α → Prop}
    (h : ∀ a ∈ o, EnumC v s c a (P a)) : FieldEnum v (some s) oe (JCodec.option c) o (∀ a ∈ o, P a) := by
  cases o with
  | none =>
    simp only [FieldEnum]
    split
    · simp
    · intro j hj
      simp only [JCodec.option, Option.some.injEq] at hj
      subst hj
      simp [listed_null]
  | some a =>
    simp only [FieldEnum, JCodec.option, Option.isNone_some, Bool.and_false, Bool.false_eq_true, if_false]
    intro j hj
    simpa using h a rfl j hj

theorem ef_opt_true {v : Int} {α : Type} {oe : Bool} {s : Sch} {c : JCodec α} {o : Option α}
    (h : ∀ a ∈ o, EnumC v s c a True) : FieldEnum v (some s) oe (JCodec.option c) o True := by
  have := ef_opt (oe := oe) (P := fun _ => True) h
  simpa using this

theorem enumC_encList {v : Int} {α : Type} {s : Sch} {c : JCodec α} {P : α → Prop} : ∀ {xs : List α} {js : List Json},
    (∀ a ∈ xs, EnumC v s c a (P a)) → JCodec.encList c xs = some js →
    ((∀ j ∈ js, HasListed v s j) ↔ ∀ a ∈ xs, P a)
  | [], js, _, h => by
    simp only [JCodec.encList, Option.some.injEq] at h
    subst h
    simp
  | x :: xs, js, hx, h => by
    simp only [JCodec.encList] at h
    cases hc : c.enc x with
    | none => simp [hc] at h
    | some j =>
      simp only [hc, Option.map_eq_some_iff] at h
      obtain ⟨js', h', rfl⟩ := h
      have ih := enumC_encList (fun a ha => hx a (List.mem_cons_of_mem _ ha)) h'
      simp only [List.mem_cons, forall_eq_or_imp, ih, hx x (by simp) j hc]

theorem enum_list {v : Int} {α : Type} {s : Sch} {c : JCodec α} {p : PSlice α} {P : α → Prop}
    (h : ∀ a ∈ p.elems, EnumC v s c a (P a)) : EnumC v (.list s) (JCodec.pslice c) p (∀ a ∈ p.elems, P a) := by
  intro j hj
  cases p with
  | nil =>
    simp only [JCodec.pslice, Option.some.injEq] at hj
    subst hj
    simp [listed_null, PSlice.elems]
  | nilSlice =>
    simp only [JCodec.pslice, Option.some.injEq] at hj
    subst hj
    simp [listed_null, PSlice.elems]
  | list xs =>
    simp only [JCodec.pslice, Option.map_eq_some_iff] at hj
    obtain ⟨js, h', rfl⟩ := hj
    simp only [PSlice.elems] at h ⊢
    rw [listed_list, enumC_encList h h']

theorem ef_list {v : Int} {α : Type} {oe : Bool} {s : Sch} {c : JCodec α} {p : PSlice α} {P : α → Prop}
    (h : ∀ a ∈ p.elems, EnumC v s c a (P a)) :
    FieldEnum v (some (.list s)) oe (JCodec.pslice c) p (∀ a ∈ p.elems, P a) := by
  simp only [FieldEnum]
  split
  · rename_i he
    rw [Bool.and_eq_true] at he
    cases p <;> simp_all [JCodec.pslice, PSlice.isNil, PSlice.elems]
  · intro j hj
    simpa using enum_list h j hj

theorem ef_list_true {v : Int} {α : Type} {oe : Bool} {s : Sch} {c : JCodec α} {p : PSlice α}
    (h : ∀ a ∈ p.elems, EnumC v s c a True) : FieldEnum v (some (.list s)) oe (JCodec.pslice c) p True := by
  have := ef_list (oe := oe) (P := fun _ => True) h
  simpa using this

variable [FloatIO]

theorem SameAt.enumC {v : Int} {s : Sch} {α : Type} {C D : JCodec α} {a : α} {Q : Prop} (h : SameAt C D a)
    (hD : EnumC v s D a Q) : EnumC v s C a Q := fun j hj => hD j (h.enc ▸ hj)

theorem enum_ike {v : Int} {σ : Type} {S : JCodec σ} {get : σ → BOMReference}
    {put : σ → BOMReference → σ} {x : σ} {n : Int} {p : Place} (h : EnumC v (.place p) S x True) :
    EnumC v (.alt .str (.since n (.place p))) (J.ikev2 S get put) x True := by
  intro j hj
  rw [listed_alt, listed_since]
  simp only [J.ikev2] at hj
  split at hj
  · simp only [Option.some.injEq] at hj
    subst hj
    exact iff_true_intro ⟨.str _, listed_place_str⟩
  · exact iff_true_intro ⟨.str _, (h j hj).2 trivial⟩

omit [FloatIO] in
theorem listedComponentList_iff {v : Int} (xs : List Component) :
    ListedComponentList v xs ↔ ∀ c ∈ xs, c.Listed v := by
  induction xs with
  | nil => simp [ListedComponentList]
  | cons x xs ih => simp [ListedComponentList, ih]
omit [FloatIO] in
theorem listedComponents_iff {v : Int} (p : PSlice Component) :
    ListedComponents v p ↔ ∀ c ∈ p.elems, c.Listed v := by
  cases p <;> simp [ListedComponents, PSlice.elems, listedComponentList_iff]
omit [FloatIO] in
theorem listedPedigreeOpt_iff {v : Int} (o : Option (Pedigree Component)) :
    ListedPedigreeOpt v o ↔ ∀ p ∈ o, ListedPedigree v p := by
  cases o <;> simp [ListedPedigreeOpt]
omit [FloatIO] in
theorem listedServiceList_iff {v : Int} (xs : List Service) : ListedServiceList v xs ↔ ∀ c ∈ xs, c.Listed v := by
  induction xs with
  | nil => simp [ListedServiceList]
  | cons x xs ih => simp [ListedServiceList, ih]
omit [FloatIO] in
theorem listedServices_iff {v : Int} (p : PSlice Service) :
    ListedServices v p ↔ ∀ c ∈ p.elems, c.Listed v := by
  cases p <;> simp [ListedServices, PSlice.elems, listedServiceList_iff]


theorem enum_advisory (v : Int) (x : Advisory) : EnumC v (.place .advisory) J.advisory x True :=
  enum_struct (
    enumF_plain (some .str) rfl rfl (ef_plain rfl) <|
    enumF_plain (some .str) rfl rfl (ef_plain rfl) <|
    enumF_nil)

theorem enum_affectedVersions (v : Int) (x : AffectedVersions) : EnumC v (.place .affectedVersions) J.affectedVersions x (AffectedVersions.Listed v x) := by
  refine EnumC.congr (enum_struct (
    enumF_plain (some .str) rfl rfl (ef_plain rfl) <|
    enumF_plain (some .str) rfl rfl (ef_plain rfl) <|
    enumF_enum .str rfl rfl el_string <|
    enumF_nil)) ?_
  simp [AffectedVersions.Listed, AffectedVersions.toP]

theorem enum_affects (v : Int) (x : Affects) : EnumC v (.place .vulnerabilityAffects) J.affects x (Affects.Listed v x) := by
  refine EnumC.congr (enum_struct (
    enumF_plain (some .str) rfl rfl (ef_plain rfl) <|
    enumF_field (some (.list (.place .affectedVersions))) rfl rfl (ef_list (fun a _ => enum_affectedVersions v a)) <|
    enumF_nil)) ?_
  simp [Affects.Listed, Affects.toP]

theorem enum_attachedText (v : Int) (x : AttachedText) : EnumC v (.place .attachment) J.attachedText x (AttachedText.Listed v x) := by
  refine EnumC.congr (enum_struct (
    enumF_plain (some .str) rfl rfl (ef_plain rfl) <|
    enumF_plain (some .str) rfl rfl (ef_plain rfl) <|
    enumF_enum .str rfl rfl el_string_oe <|
    enumF_nil)) ?_
  simp [AttachedText.Listed, AttachedText.toP]

theorem enum_property (v : Int) (x : Property) : EnumC v (.place .property) J.property x True :=
  enum_struct (
    enumF_plain (some .str) rfl rfl (ef_plain rfl) <|
    enumF_plain (some .str) rfl rfl (ef_plain rfl) <|
    enumF_nil)

theorem enum_componentDataContents (v : Int) (x : ComponentDataContents) : EnumC v (.place .componentDataContents) J.componentDataContents x (ComponentDataContents.Listed v x) := by
  refine EnumC.congr (enum_struct (
    enumF_field (some (.place .attachment)) rfl rfl (ef_opt (fun a _ => enum_attachedText v a)) <|
    enumF_plain (some .str) rfl rfl (ef_plain rfl) <|
    enumF_plain (some (.list (.place .property))) rfl rfl (ef_list_true (fun a _ => enum_property v a)) <|
    enumF_nil)) ?_
  simp [ComponentDataContents.Listed, ComponentDataContents.toP]

theorem enum_componentDataGraphic (v : Int) (x : ComponentDataGraphic) : EnumC v (.place .graphic) J.componentDataGraphic x (ComponentDataGraphic.Listed v x) := by
  refine EnumC.congr (enum_struct (
    enumF_plain (some .str) rfl rfl (ef_plain rfl) <|
    enumF_field (some (.place .attachment)) rfl rfl (ef_opt (fun a _ => enum_attachedText v a)) <|
    enumF_nil)) ?_
  simp [ComponentDataGraphic.Listed, ComponentDataGraphic.toP]

theorem enum_componentDataGraphics (v : Int) (x : ComponentDataGraphics) : EnumC v (.place .graphicsCollection) J.componentDataGraphics x (ComponentDataGraphics.Listed v x) := by
  refine EnumC.congr (enum_struct (
    enumF_plain (some .str) rfl rfl (ef_plain rfl) <|
    enumF_field (some (.list (.place .graphic))) rfl rfl (ef_list (fun a _ => enum_componentDataGraphic v a)) <|
    enumF_nil)) ?_
  simp [ComponentDataGraphics.Listed, ComponentDataGraphics.toP]

theorem enum_organizationalContact (v : Int) (x : OrganizationalContact) : EnumC v (.place .organizationalContact) J.organizationalContact x True :=
  enum_struct (
    enumF_plain (some (.since SpecVersion1_5 .str)) rfl rfl (ef_plain rfl) <|
    enumF_plain (some .str) rfl rfl (ef_plain rfl) <|
    enumF_plain (some .str) rfl rfl (ef_plain rfl) <|
    enumF_plain (some .str) rfl rfl (ef_plain rfl) <|
    enumF_nil)

theorem enum_postalAddress (v : Int) (x : PostalAddress) : EnumC v (.place .postalAddress) J.postalAddress x True :=
  enum_struct (
    enumF_plain (some .str) rfl rfl (ef_plain rfl) <|
    enumF_plain (some .str) rfl rfl (ef_plain rfl) <|
    enumF_plain (some .str) rfl rfl (ef_plain rfl) <|
    enumF_plain (some .str) rfl rfl (ef_plain rfl) <|
    enumF_plain (some .str) rfl rfl (ef_plain rfl) <|
    enumF_plain (some .str) rfl rfl (ef_plain rfl) <|
    enumF_plain (some .str) rfl rfl (ef_plain rfl) <|
    enumF_nil)

theorem enum_organizationalEntity (v : Int) (x : OrganizationalEntity) : EnumC v (.place .organizationalEntity) J.organizationalEntity x True :=
  enum_struct (
    enumF_plain (some (.since SpecVersion1_5 .str)) rfl rfl (ef_plain rfl) <|
    enumF_plain (some .str) rfl rfl (ef_plain rfl) <|
    enumF_plain (some (.since SpecVersion1_6 (.place .postalAddress))) rfl rfl (ef_since (ef_opt_true (fun a _ => enum_postalAddress v a))) <|
    enumF_plain (some (.list .str)) rfl rfl (ef_plain rfl) <|
    enumF_plain (some (.list (.place .organizationalContact))) rfl rfl (ef_list_true (fun a _ => enum_organizationalContact v a)) <|
    enumF_nil)

theorem enum_componentDataGovernanceResponsibleParty (v : Int) (x : ComponentDataGovernanceResponsibleParty) : EnumC v (.place .dataGovernanceResponsibleParty) J.componentDataGovernanceResponsibleParty x True :=
  enum_struct (
    enumF_plain (some (.place .organizationalEntity)) rfl rfl (ef_opt_true (fun a _ => enum_organizationalEntity v a)) <|
    enumF_plain (some (.place .organizationalContact)) rfl rfl (ef_opt_true (fun a _ => enum_organizationalContact v a)) <|
    enumF_nil)

theorem enum_dataGovernance (v : Int) (x : DataGovernance) : EnumC v (.place .dataGovernance) J.dataGovernance x True :=
  enum_struct (
    enumF_plain (some (.list (.place .dataGovernanceResponsibleParty))) rfl rfl (ef_list_true (fun a _ => enum_componentDataGovernanceResponsibleParty v a)) <|
    enumF_plain (some (.list (.place .dataGovernanceResponsibleParty))) rfl rfl (ef_list_true (fun a _ => enum_componentDataGovernanceResponsibleParty v a)) <|
    enumF_plain (some (.list (.place .dataGovernanceResponsibleParty))) rfl rfl (ef_list_true (fun a _ => enum_componentDataGovernanceResponsibleParty v a)) <|
    enumF_nil)

theorem enum_componentData (v : Int) (x : ComponentData) : EnumC v (.place .componentData) J.componentData x (ComponentData.Listed v x) := by
  refine EnumC.congr (enum_struct (
    enumF_plain (some .str) rfl rfl (ef_plain rfl) <|
    enumF_enum .str rfl rfl el_string_oe <|
    enumF_plain (some .str) rfl rfl (ef_plain rfl) <|
    enumF_field (some (.place .componentDataContents)) rfl rfl (ef_opt (fun a _ => enum_componentDataContents v a)) <|
    enumF_plain (some .str) rfl rfl (ef_plain rfl) <|
    enumF_plain (some (.list .str)) rfl rfl (ef_plain rfl) <|
    enumF_field (some (.place .graphicsCollection)) rfl rfl (ef_opt (fun a _ => enum_componentDataGraphics v a)) <|
    enumF_plain (some .str) rfl rfl (ef_plain rfl) <|
    enumF_plain (some (.place .dataGovernance)) rfl rfl (ef_opt_true (fun a _ => enum_dataGovernance v a)) <|
    enumF_nil)) ?_
  simp [ComponentData.Listed, ComponentData.toP]

theorem enum_componentData_modelDataset (v : Int) (x : ComponentData) : EnumC v (.place .modelDataset) J.componentData x (ComponentData.ListedModelDataset v x) := by
  refine EnumC.congr (enum_struct (
    enumF_plain (some .str) rfl rfl (ef_plain rfl) <|
    enumF_enum .str rfl rfl el_string_oe <|
    enumF_plain (some .str) rfl rfl (ef_plain rfl) <|
    enumF_field (some (.place .componentDataContents)) rfl rfl (ef_opt (fun a _ => enum_componentDataContents v a)) <|
    enumF_plain (some .str) rfl rfl (ef_plain rfl) <|
    enumF_plain (some (.list .str)) rfl rfl (ef_plain rfl) <|
    enumF_field (some (.place .graphicsCollection)) rfl rfl (ef_opt (fun a _ => enum_componentDataGraphics v a)) <|
    enumF_plain (some .str) rfl rfl (ef_plain rfl) <|
    enumF_plain (some (.place .dataGovernance)) rfl rfl (ef_opt_true (fun a _ => enum_dataGovernance v a)) <|
    enumF_nil)) ?_
  simp [ComponentData.ListedModelDataset, ComponentData.toP]

theorem enum_hash (v : Int) (x : Hash) : EnumC v (.place .hash) J.hash x (Hash.Listed v x) := by
  refine EnumC.congr (enum_struct (
    enumF_enum .str rfl rfl el_string <|
    enumF_plain (some .str) rfl rfl (ef_plain rfl) <|
    enumF_nil)) ?_
  simp [Hash.Listed, Hash.toP]

theorem enum_relatedCryptographicAsset (v : Int) (x : RelatedCryptographicAsset) : EnumC v (.place .relatedCryptographicAsset) J.relatedCryptographicAsset x True :=
  enum_struct (
    enumF_plain (some .str) rfl rfl (ef_plain rfl) <|
    enumF_plain (some .str) rfl rfl (ef_plain rfl) <|
    enumF_nil)

theorem enum_predefinedCertificateState (v : Int) (x : PredefinedCertificateState) : EnumC v (.place .certificateState) J.predefinedCertificateState x (PredefinedCertificateState.Listed v x) := by
  refine EnumC.congr (enum_struct (
    enumF_enum .str rfl rfl el_string <|
    enumF_plain (some .str) rfl rfl (ef_plain rfl) <|
    enumF_nil)) ?_
  simp [PredefinedCertificateState.Listed, PredefinedCertificateState.toP]

theorem enum_customCertificateState (v : Int) (x : CustomCertificateState) : EnumC v (.place .certificateState) J.customCertificateState x True :=
  enum_struct (
    enumF_plain (some .str) rfl rfl (ef_plain rfl) <|
    enumF_plain (some .str) rfl rfl (ef_plain rfl) <|
    enumF_plain (some .str) rfl rfl (ef_plain rfl) <|
    enumF_nil)

theorem enum_certificateState (v : Int) (x : CertificateState) :
    EnumC v (.place .certificateState) J.certificateState x (x.Listed v) := by
  intro j hj
  obtain ⟨a, b⟩ := x
  cases a <;> cases b <;> simp only [J.certificateState] at hj
  · simp only [Option.some.injEq] at hj; subst hj
    simp [listed_place, CertificateState.Listed]
  · simp [CertificateState.Listed, enum_customCertificateState v _ j hj]
  · simp [CertificateState.Listed, enum_predefinedCertificateState v _ j hj]
  · cases hj


theorem enum_commonCertificateExtension (v : Int) (x : CommonCertificateExtension) : EnumC v (.place .certificateExtension) J.commonCertificateExtension x (CommonCertificateExtension.Listed v x) := by
  refine EnumC.congr (enum_struct (
    enumF_enum .str rfl rfl el_string <|
    enumF_plain (some .str) rfl rfl (ef_plain rfl) <|
    enumF_nil)) ?_
  simp [CommonCertificateExtension.Listed, CommonCertificateExtension.toP]

theorem enum_customCertificateExtension (v : Int) (x : CustomCertificateExtension) : EnumC v (.place .certificateExtension) J.customCertificateExtension x True :=
  enum_struct (
    enumF_plain (some .str) rfl rfl (ef_plain rfl) <|
    enumF_plain (some .str) rfl rfl (ef_plain rfl) <|
    enumF_nil)

theorem enum_certificateExtension (v : Int) (x : CertificateExtension) :
    EnumC v (.place .certificateExtension) J.certificateExtension x (x.Listed v) := by
  intro j hj
  obtain ⟨a, b⟩ := x
  cases a <;> cases b <;> simp only [J.certificateExtension] at hj
  · simp only [Option.some.injEq] at hj; subst hj
    simp [listed_place, CertificateExtension.Listed]
  · simp [CertificateExtension.Listed, enum_customCertificateExtension v _ j hj]
  · simp [CertificateExtension.Listed, enum_commonCertificateExtension v _ j hj]
  · cases hj


theorem enum_certificateProperties (v : Int) (x : CertificateProperties) : EnumC v (.place .certificateProperties) J.certificateProperties x (CertificateProperties.Listed v x) := by
  refine EnumC.congr (enum_struct (
    enumF_plain (some (.since SpecVersion1_7 .str)) rfl rfl (ef_plain rfl) <|
    enumF_plain (some .str) rfl rfl (ef_plain rfl) <|
    enumF_plain (some .str) rfl rfl (ef_plain rfl) <|
    enumF_plain (some .str) rfl rfl (ef_plain rfl) <|
    enumF_plain (some .str) rfl rfl (ef_plain rfl) <|
    enumF_plain (some .str) rfl rfl (ef_plain rfl) <|
    enumF_plain (some .str) rfl rfl (ef_plain rfl) <|
    enumF_plain (some .str) rfl rfl (ef_plain rfl) <|
    enumF_plain (some .str) rfl rfl (ef_plain rfl) <|
    enumF_plain (some (.since SpecVersion1_7 .str)) rfl rfl (ef_plain rfl) <|
    enumF_field (some (.since SpecVersion1_7 (.place .hash))) rfl rfl (ef_since (ef_opt (fun a _ => enum_hash v a))) <|
    enumF_field (some (.since SpecVersion1_7 (.list (.place .certificateState)))) rfl rfl (ef_since (ef_list (fun a _ => enum_certificateState v a))) <|
    enumF_field (some (.since SpecVersion1_7 (.list (.place .certificateExtension)))) rfl rfl (ef_since (ef_list (fun a _ => enum_certificateExtension v a))) <|
    enumF_plain (some (.since SpecVersion1_7 (.list (.place .relatedCryptographicAsset)))) rfl rfl (ef_since (ef_list_true (fun a _ => enum_relatedCryptographicAsset v a))) <|
    enumF_plain (some (.since SpecVersion1_7 .str)) rfl rfl (ef_plain rfl) <|
    enumF_plain (some (.since SpecVersion1_7 .str)) rfl rfl (ef_plain rfl) <|
    enumF_plain (some (.since SpecVersion1_7 .str)) rfl rfl (ef_plain rfl) <|
    enumF_plain (some (.since SpecVersion1_7 .str)) rfl rfl (ef_plain rfl) <|
    enumF_plain (some (.since SpecVersion1_7 .str)) rfl rfl (ef_plain rfl) <|
    enumF_nil)) ?_
  simp [CertificateProperties.Listed, CertificateProperties.toP]

theorem enum_cryptoAlgorithmProperties (v : Int) (x : CryptoAlgorithmProperties) : EnumC v (.place .algorithmProperties) J.cryptoAlgorithmProperties x (CryptoAlgorithmProperties.Listed v x) := by
  refine EnumC.congr (enum_struct (
    enumF_enum .str rfl rfl el_string_oe <|
    enumF_plain (some .str) rfl rfl (ef_plain rfl) <|
    enumF_plain (some (.since SpecVersion1_7 .str)) rfl rfl (ef_plain rfl) <|
    enumF_plain (some .str) rfl rfl (ef_plain rfl) <|
    enumF_plain (some (.since SpecVersion1_7 .str)) rfl rfl (ef_plain rfl) <|
    enumF_enum .str rfl rfl el_string_oe <|
    enumF_enum .str rfl rfl el_string_oe <|
    enumF_enum (.list .str) rfl rfl el_list <|
    enumF_enum .str rfl rfl el_string_oe <|
    enumF_enum .str rfl rfl el_string_oe <|
    enumF_enum (.list .str) rfl rfl el_list <|
    enumF_plain (some .int) rfl rfl (ef_plain rfl) <|
    enumF_plain (some .int) rfl rfl (ef_plain rfl) <|
    enumF_nil)) ?_
  simp [CryptoAlgorithmProperties.Listed, CryptoAlgorithmProperties.toP]

theorem enum_cipherSuite (v : Int) (x : CipherSuite) : EnumC v (.place .cipherSuite) J.cipherSuite x True :=
  enum_struct (
    enumF_plain (some .str) rfl rfl (ef_plain rfl) <|
    enumF_plain (some (.list .str)) rfl rfl (ef_plain rfl) <|
    enumF_plain (some (.list .str)) rfl rfl (ef_plain rfl) <|
    enumF_plain (some (.since SpecVersion1_7 (.list .str))) rfl rfl (ef_plain rfl) <|
    enumF_plain (some (.since SpecVersion1_7 (.list .str))) rfl rfl (ef_plain rfl) <|
    enumF_nil)

theorem enum_ikev2Auth (v : Int) (x : IKEv2Auth) :
    EnumC v (.alt .str (.since SpecVersion1_7 (.place .ikeV2Auth))) J.ikev2Auth x True := by
  refine enum_ike (EnumC.congr (enum_struct (
    enumF_skip <|
    enumF_plain (some .str) rfl rfl (ef_plain rfl) <|
    enumF_plain (some .str) rfl rfl (ef_plain rfl) <|
    enumF_nil)) Iff.rfl)

theorem enum_ikev2Enc (v : Int) (x : IKEv2Enc) :
    EnumC v (.alt .str (.since SpecVersion1_7 (.place .ikeV2Enc))) J.ikev2Enc x True := by
  refine enum_ike (EnumC.congr (enum_struct (
    enumF_skip <|
    enumF_plain (some .str) rfl rfl (ef_plain rfl) <|
    enumF_plain (some .int) rfl rfl (ef_plain rfl) <|
    enumF_plain (some .str) rfl rfl (ef_plain rfl) <|
    enumF_nil)) Iff.rfl)

theorem enum_ikev2Integ (v : Int) (x : IKEv2Integ) :
    EnumC v (.alt .str (.since SpecVersion1_7 (.place .ikeV2Integ))) J.ikev2Integ x True := by
  refine enum_ike (EnumC.congr (enum_struct (
    enumF_skip <|
    enumF_plain (some .str) rfl rfl (ef_plain rfl) <|
    enumF_plain (some .str) rfl rfl (ef_plain rfl) <|
    enumF_nil)) Iff.rfl)

theorem enum_ikev2Ke (v : Int) (x : IKEv2Ke) :
    EnumC v (.alt .str (.since SpecVersion1_7 (.place .ikeV2Ke))) J.ikev2Ke x True := by
  refine enum_ike (EnumC.congr (enum_struct (
    enumF_skip <|
    enumF_plain (some .int) rfl rfl (ef_plain rfl) <|
    enumF_plain (some .str) rfl rfl (ef_plain rfl) <|
    enumF_nil)) Iff.rfl)

theorem enum_ikev2Prf (v : Int) (x : IKEv2Prf) :
    EnumC v (.alt .str (.since SpecVersion1_7 (.place .ikeV2Prf))) J.ikev2Prf x True := by
  refine enum_ike (EnumC.congr (enum_struct (
    enumF_skip <|
    enumF_plain (some .str) rfl rfl (ef_plain rfl) <|
    enumF_plain (some .str) rfl rfl (ef_plain rfl) <|
    enumF_nil)) Iff.rfl)

theorem enum_ikev2TransformTypes (v : Int) (x : IKEv2TransformTypes) : EnumC v (.place .ikev2TransformTypes) J.ikev2TransformTypes x True :=
  enum_struct (
    enumF_plain (some (.list (.alt .str (.since SpecVersion1_7 (.place .ikeV2Enc))))) rfl rfl (ef_list_true (fun a _ => enum_ikev2Enc v a)) <|
    enumF_plain (some (.list (.alt .str (.since SpecVersion1_7 (.place .ikeV2Prf))))) rfl rfl (ef_list_true (fun a _ => enum_ikev2Prf v a)) <|
    enumF_plain (some (.list (.alt .str (.since SpecVersion1_7 (.place .ikeV2Integ))))) rfl rfl (ef_list_true (fun a _ => enum_ikev2Integ v a)) <|
    enumF_plain (some (.list (.alt .str (.since SpecVersion1_7 (.place .ikeV2Ke))))) rfl rfl (ef_list_true (fun a _ => enum_ikev2Ke v a)) <|
    enumF_plain (some .bool) rfl rfl (ef_plain rfl) <|
    enumF_plain (some (.list (.alt .str (.since SpecVersion1_7 (.place .ikeV2Auth))))) rfl rfl (ef_list_true (fun a _ => enum_ikev2Auth v a)) <|
    enumF_nil)

theorem enum_cryptoProtocolProperties (v : Int) (x : CryptoProtocolProperties) : EnumC v (.place .protocolProperties) J.cryptoProtocolProperties x (CryptoProtocolProperties.Listed v x) := by
  refine EnumC.congr (enum_struct (
    enumF_enum .str rfl rfl el_string_oe <|
    enumF_plain (some .str) rfl rfl (ef_plain rfl) <|
    enumF_plain (some (.list (.place .cipherSuite))) rfl rfl (ef_list_true (fun a _ => enum_cipherSuite v a)) <|
    enumF_plain (some (.place .ikev2TransformTypes)) rfl rfl (ef_opt_true (fun a _ => enum_ikev2TransformTypes v a)) <|
    enumF_plain (some (.list .str)) rfl rfl (ef_plain rfl) <|
    enumF_plain (some (.since SpecVersion1_7 (.list (.place .relatedCryptographicAsset)))) rfl rfl (ef_since (ef_list_true (fun a _ => enum_relatedCryptographicAsset v a))) <|
    enumF_nil)) ?_
  simp [CryptoProtocolProperties.Listed, CryptoProtocolProperties.toP]

theorem enum_securedBy (v : Int) (x : SecuredBy) : EnumC v (.place .securedBy) J.securedBy x True :=
  enum_struct (
    enumF_plain (some .str) rfl rfl (ef_plain rfl) <|
    enumF_plain (some .str) rfl rfl (ef_plain rfl) <|
    enumF_nil)

theorem enum_relatedCryptoMaterialProperties (v : Int) (x : RelatedCryptoMaterialProperties) : EnumC v (.place .relatedCryptoMaterialProperties) J.relatedCryptoMaterialProperties x (RelatedCryptoMaterialProperties.Listed v x) := by
  refine EnumC.congr (enum_struct (
    enumF_enum .str rfl rfl el_string_oe <|
    enumF_plain (some .str) rfl rfl (ef_plain rfl) <|
    enumF_enum .str rfl rfl el_string_oe <|
    enumF_plain (some .str) rfl rfl (ef_plain rfl) <|
    enumF_plain (some .str) rfl rfl (ef_plain rfl) <|
    enumF_plain (some .str) rfl rfl (ef_plain rfl) <|
    enumF_plain (some .str) rfl rfl (ef_plain rfl) <|
    enumF_plain (some .str) rfl rfl (ef_plain rfl) <|
    enumF_plain (some .str) rfl rfl (ef_plain rfl) <|
    enumF_plain (some .int) rfl rfl (ef_plain rfl) <|
    enumF_plain (some .str) rfl rfl (ef_plain rfl) <|
    enumF_plain (some (.place .securedBy)) rfl rfl (ef_opt_true (fun a _ => enum_securedBy v a)) <|
    enumF_field (some (.since SpecVersion1_7 (.place .hash))) rfl rfl (ef_since (ef_opt (fun a _ => enum_hash v a))) <|
    enumF_plain (some (.since SpecVersion1_7 (.list (.place .relatedCryptographicAsset)))) rfl rfl (ef_since (ef_list_true (fun a _ => enum_relatedCryptographicAsset v a))) <|
    enumF_nil)) ?_
  simp [RelatedCryptoMaterialProperties.Listed, RelatedCryptoMaterialProperties.toP]

theorem enum_cryptoProperties (v : Int) (x : CryptoProperties) : EnumC v (.place .cryptoProperties) J.cryptoProperties x (CryptoProperties.Listed v x) := by
  refine EnumC.congr (enum_struct (
    enumF_enum .str rfl rfl el_string <|
    enumF_field (some (.place .algorithmProperties)) rfl rfl (ef_opt (fun a _ => enum_cryptoAlgorithmProperties v a)) <|
    enumF_field (some (.place .certificateProperties)) rfl rfl (ef_opt (fun a _ => enum_certificateProperties v a)) <|
    enumF_field (some (.place .relatedCryptoMaterialProperties)) rfl rfl (ef_opt (fun a _ => enum_relatedCryptoMaterialProperties v a)) <|
    enumF_field (some (.place .protocolProperties)) rfl rfl (ef_opt (fun a _ => enum_cryptoProtocolProperties v a)) <|
    enumF_plain (some .str) rfl rfl (ef_plain rfl) <|
    enumF_nil)) ?_
  simp [CryptoProperties.Listed, CryptoProperties.toP]

theorem enum_callstackFrame (v : Int) (x : CallstackFrame) : EnumC v (.place .componentEvidenceCallstackFrames) J.callstackFrame x True :=
  enum_struct (
    enumF_plain (some .str) rfl rfl (ef_plain rfl) <|
    enumF_plain (some .str) rfl rfl (ef_plain rfl) <|
    enumF_plain (some .str) rfl rfl (ef_plain rfl) <|
    enumF_plain (some (.list .str)) rfl rfl (ef_plain rfl) <|
    enumF_plain (some .int) rfl rfl (ef_plain rfl) <|
    enumF_plain (some .int) rfl rfl (ef_plain rfl) <|
    enumF_plain (some .str) rfl rfl (ef_plain rfl) <|
    enumF_nil)

theorem enum_callstack (v : Int) (x : Callstack) : EnumC v (.place .componentEvidenceCallstack) J.callstack x True :=
  enum_struct (
    enumF_plain (some (.list (.place .componentEvidenceCallstackFrames))) rfl rfl (ef_list_true (fun a _ => enum_callstackFrame v a)) <|
    enumF_nil)

theorem enum_copyright (v : Int) (x : Copyright) : EnumC v (.place .copyright) J.copyright x True :=
  enum_struct (
    enumF_plain (some .str) rfl rfl (ef_plain rfl) <|
    enumF_nil)

theorem enum_evidenceIdentityMethod (v : Int) (x : EvidenceIdentityMethod) : EnumC v (.place .componentIdentityEvidenceMethods) J.evidenceIdentityMethod x (EvidenceIdentityMethod.Listed v x) := by
  refine EnumC.congr (enum_struct (
    enumF_enum .str rfl rfl el_string_oe <|
    enumF_plain (some .num) rfl rfl (ef_plain rfl) <|
    enumF_plain (some .str) rfl rfl (ef_plain rfl) <|
    enumF_nil)) ?_
  simp [EvidenceIdentityMethod.Listed, EvidenceIdentityMethod.toP]

theorem enum_evidenceIdentity (v : Int) (x : EvidenceIdentity) : EnumC v (.place .componentIdentityEvidence) J.evidenceIdentity x (EvidenceIdentity.Listed v x) := by
  refine EnumC.congr (enum_struct (
    enumF_enum .str rfl rfl el_string_oe <|
    enumF_plain (some .num) rfl rfl (ef_plain rfl) <|
    enumF_plain (some (.since SpecVersion1_6 .str)) rfl rfl (ef_plain rfl) <|
    enumF_field (some (.list (.place .componentIdentityEvidenceMethods))) rfl rfl (ef_list (fun a _ => enum_evidenceIdentityMethod v a)) <|
    enumF_plain (some (.list .str)) rfl rfl (ef_plain rfl) <|
    enumF_nil)) ?_
  simp [EvidenceIdentity.Listed, EvidenceIdentity.toP]

theorem enum_evidenceIdentityChoice (v : Int) (x : EvidenceIdentityChoice) :
    EnumC v (.alt (.since SpecVersion1_6 (.list (.place .componentIdentityEvidence))) (.place .componentIdentityEvidence)) J.evidenceIdentityChoice x (x.Listed v) := by
  intro j hj
  obtain ⟨a, p⟩ := x
  simp only [J.evidenceIdentityChoice] at hj
  rw [listed_alt, listed_since]
  cases a with
  | some i =>
    simp only at hj
    split at hj
    · cases hj
    · rename_i hp
      have hp : p = .nil := by cases p <;> simp_all [PSlice.isNil]
      subst hp
      obtain ⟨ms, rfl⟩ := struct_is_obj hj
      have := enum_evidenceIdentity v i _ hj
      simp [listed_list_obj, this, EvidenceIdentityChoice.Listed, PSlice.elems]
  | none =>
    simp only at hj
    split at hj
    · have h := enum_list (fun a _ => enum_evidenceIdentity v a) j hj
      have hn : HasListed v (.place .componentIdentityEvidence) j := by
        cases p with
        | list xs =>
          simp only [JCodec.pslice, Option.map_eq_some_iff] at hj
          obtain ⟨js, _, rfl⟩ := hj; exact listed_place_arr
        | _ =>
          simp only [JCodec.pslice, Option.some.injEq] at hj
          subst hj; exact listed_null _
      rw [h]
      simp [hn, EvidenceIdentityChoice.Listed]
    · rename_i hp
      have hp : p = .nil := by cases p <;> simp_all [PSlice.isNil]
      simp only [Option.some.injEq] at hj
      subst hj hp
      simp [listed_null, EvidenceIdentityChoice.Listed, PSlice.elems]


theorem enum_evidenceOccurrence (v : Int) (x : EvidenceOccurrence) : EnumC v (.place .componentEvidenceOccurrences) J.evidenceOccurrence x True :=
  enum_struct (
    enumF_plain (some .str) rfl rfl (ef_plain rfl) <|
    enumF_plain (some .str) rfl rfl (ef_plain rfl) <|
    enumF_plain (some (.since SpecVersion1_6 .int)) rfl rfl (ef_plain rfl) <|
    enumF_plain (some (.since SpecVersion1_6 .int)) rfl rfl (ef_plain rfl) <|
    enumF_plain (some (.since SpecVersion1_6 .str)) rfl rfl (ef_plain rfl) <|
    enumF_plain (some (.since SpecVersion1_6 .str)) rfl rfl (ef_plain rfl) <|
    enumF_nil)

theorem enum_organizationalEntityOrContact (v : Int) (x : OrganizationalEntityOrContact) : EnumC v (.place .organizationOrIndividual) J.organizationalEntityOrContact x True :=
  enum_struct (
    enumF_plain (some (.place .organizationalEntity)) rfl rfl (ef_opt_true (fun a _ => enum_organizationalEntity v a)) <|
    enumF_plain (some (.place .organizationalContact)) rfl rfl (ef_opt_true (fun a _ => enum_organizationalContact v a)) <|
    enumF_nil)

theorem enum_organizationalEntityOrContact_patentAssignee (v : Int) (x : OrganizationalEntityOrContact) : EnumC v (.place .patentAssignee) J.organizationalEntityOrContact x True :=
  enum_struct (
    enumF_plain none rfl rfl (ef_none) <|
    enumF_plain none rfl rfl (ef_none) <|
    enumF_nil)

theorem enum_licensing (v : Int) (x : Licensing) : EnumC v (.place .licensing) J.licensing x (Licensing.Listed v x) := by
  refine EnumC.congr (enum_struct (
    enumF_plain (some (.list .str)) rfl rfl (ef_plain rfl) <|
    enumF_plain (some (.place .organizationOrIndividual)) rfl rfl (ef_opt_true (fun a _ => enum_organizationalEntityOrContact v a)) <|
    enumF_plain (some (.place .organizationOrIndividual)) rfl rfl (ef_opt_true (fun a _ => enum_organizationalEntityOrContact v a)) <|
    enumF_plain (some (.place .organizationOrIndividual)) rfl rfl (ef_opt_true (fun a _ => enum_organizationalEntityOrContact v a)) <|
    enumF_plain (some .str) rfl rfl (ef_plain rfl) <|
    enumF_enum (.list .str) rfl rfl el_list <|
    enumF_plain (some .str) rfl rfl (ef_plain rfl) <|
    enumF_plain (some .str) rfl rfl (ef_plain rfl) <|
    enumF_nil)) ?_
  simp [Licensing.Listed, Licensing.toP]

theorem enum_license (v : Int) (x : License) : EnumC v (.place .license) J.license x (x.Listed v) := by
  suffices h : EnumC v (.place .license) J.licenseAlias x (x.Listed v) by
    intro j hj
    simp only [J.license] at hj
    split at hj
    · cases hj
    · split at hj
      · cases hj
      · exact h j hj
  refine EnumC.congr (enum_struct (
    enumF_plain (some (.since SpecVersion1_5 .str)) rfl rfl (ef_plain rfl) <|
    enumF_plain (some .str) rfl rfl (ef_plain rfl) <|
    enumF_plain (some .str) rfl rfl (ef_plain rfl) <|
    enumF_enum (.since SpecVersion1_6 .str) rfl rfl el_string_oe <|
    enumF_field (some (.place .attachment)) rfl rfl (ef_opt (fun a _ => enum_attachedText v a)) <|
    enumF_plain (some .str) rfl rfl (ef_plain rfl) <|
    enumF_field (some (.since SpecVersion1_5 (.place .licensing))) rfl rfl (ef_since (ef_opt (fun a _ => enum_licensing v a))) <|
    enumF_plain (some (.since SpecVersion1_5 (.list (.place .property)))) rfl rfl (ef_since (ef_list_true (fun a _ => enum_property v a))) <|
    enumF_nil)) ?_
  simp [License.Listed, License.toP]


theorem enum_licenseExpressionDetail (v : Int) (x : LicenseExpressionDetail) : EnumC v (.place .expressionDetail) J.licenseExpressionDetail x (LicenseExpressionDetail.Listed v x) := by
  refine EnumC.congr (enum_struct (
    enumF_plain (some .str) rfl rfl (ef_plain rfl) <|
    enumF_plain (some .str) rfl rfl (ef_plain rfl) <|
    enumF_field (some (.place .attachment)) rfl rfl (ef_opt (fun a _ => enum_attachedText v a)) <|
    enumF_plain (some .str) rfl rfl (ef_plain rfl) <|
    enumF_nil)) ?_
  simp [LicenseExpressionDetail.Listed, LicenseExpressionDetail.toP]

theorem enum_licenseChoice (v : Int) (x : LicenseChoice) : EnumC v (.place .licenseChoice) J.licenseChoice x (LicenseChoice.Listed v x) := by
  refine EnumC.congr (enum_struct (
    enumF_field (some (.place .license)) rfl rfl (ef_opt (fun a _ => enum_license v a)) <|
    enumF_plain (some .str) rfl rfl (ef_plain rfl) <|
    enumF_field (some (.since SpecVersion1_7 (.list (.place .expressionDetail)))) rfl rfl (ef_since (ef_list (fun a _ => enum_licenseExpressionDetail v a))) <|
    enumF_enum (.since SpecVersion1_6 .str) rfl rfl el_opt <|
    enumF_plain (some (.since SpecVersion1_6 .str)) rfl rfl (ef_plain rfl) <|
    enumF_field (some (.since SpecVersion1_7 (.place .licensing))) rfl rfl (ef_since (ef_opt (fun a _ => enum_licensing v a))) <|
    enumF_plain (some (.since SpecVersion1_7 (.list (.place .property)))) rfl rfl (ef_since (ef_list_true (fun a _ => enum_property v a))) <|
    enumF_nil)) ?_
  simp [LicenseChoice.Listed, LicenseChoice.toP]

theorem enum_evidence (v : Int) (x : Evidence) : EnumC v (.place .componentEvidence) J.evidence x (Evidence.Listed v x) := by
  refine EnumC.congr (enum_struct (
    enumF_field (some (.since SpecVersion1_5 (.alt (.since SpecVersion1_6 (.list (.place .componentIdentityEvidence))) (.place .componentIdentityEvidence)))) rfl rfl (ef_since (ef_opt (fun a _ => enum_evidenceIdentityChoice v a))) <|
    enumF_plain (some (.since SpecVersion1_5 (.list (.place .componentEvidenceOccurrences)))) rfl rfl (ef_since (ef_list_true (fun a _ => enum_evidenceOccurrence v a))) <|
    enumF_plain (some (.since SpecVersion1_5 (.place .componentEvidenceCallstack))) rfl rfl (ef_since (ef_opt_true (fun a _ => enum_callstack v a))) <|
    enumF_field (some (.list (.place .licenseChoice))) rfl rfl (ef_list (fun a _ => enum_licenseChoice v a)) <|
    enumF_plain (some (.list (.place .copyright))) rfl rfl (ef_list_true (fun a _ => enum_copyright v a)) <|
    enumF_nil)) ?_
  simp [Evidence.Listed, Evidence.toP]

theorem enum_externalReference (v : Int) (x : ExternalReference) : EnumC v (.place .externalReference) J.externalReference x (ExternalReference.Listed v x) := by
  refine EnumC.congr (enum_struct (
    enumF_plain (some .str) rfl rfl (ef_plain rfl) <|
    enumF_plain (some .str) rfl rfl (ef_plain rfl) <|
    enumF_field (some (.since SpecVersion1_3 (.list (.place .hash)))) rfl rfl (ef_since (ef_list (fun a _ => enum_hash v a))) <|
    enumF_enum .str rfl rfl el_string <|
    enumF_plain (some (.since SpecVersion1_7 (.list (.place .property)))) rfl rfl (ef_since (ef_list_true (fun a _ => enum_property v a))) <|
    enumF_nil)) ?_
  simp [ExternalReference.Listed, ExternalReference.toP]

theorem enum_jsfPublicKey (v : Int) (x : JSFPublicKey) : EnumC v (.place .publicKey) J.jsfPublicKey x (JSFPublicKey.Listed v x) := by
  refine EnumC.congr (enum_struct (
    enumF_enum .str rfl rfl el_string_oe <|
    enumF_enum .str rfl rfl el_string_oe <|
    enumF_plain (some .str) rfl rfl (ef_plain rfl) <|
    enumF_plain (some .str) rfl rfl (ef_plain rfl) <|
    enumF_plain (some .str) rfl rfl (ef_plain rfl) <|
    enumF_plain (some .str) rfl rfl (ef_plain rfl) <|
    enumF_nil)) ?_
  simp [JSFPublicKey.Listed, JSFPublicKey.toP]

theorem enum_jsfSigner (v : Int) (x : JSFSigner) : EnumC v (.place .signer) J.jsfSigner x (JSFSigner.Listed v x) := by
  refine EnumC.congr (enum_struct (
    enumF_plain (some .str) rfl rfl (ef_plain rfl) <|
    enumF_plain (some .str) rfl rfl (ef_plain rfl) <|
    enumF_field (some (.place .publicKey)) rfl rfl (ef_val (enum_jsfPublicKey v _)) <|
    enumF_plain (some (.list .str)) rfl rfl (ef_plain rfl) <|
    enumF_plain (some (.list .str)) rfl rfl (ef_plain rfl) <|
    enumF_plain (some .str) rfl rfl (ef_plain rfl) <|
    enumF_nil)) ?_
  simp [JSFSigner.Listed, JSFSigner.toP]

theorem enum_jsfSignature (v : Int) (x : JSFSignature) : EnumC v (.place .signature) J.jsfSignature x (JSFSignature.Listed v x) := by
  refine EnumC.congr (enum_struct (
    enumF_skip <|
    enumF_field (some (.list (.place .signer))) rfl rfl (ef_list (fun a _ => enum_jsfSigner v a)) <|
    enumF_field (some (.list (.place .signer))) rfl rfl (ef_list (fun a _ => enum_jsfSigner v a)) <|
    enumF_nil)) ?_
  simp [JSFSignature.Listed, JSFSignature.toP]

theorem enum_mlModelCO2Measure (v : Int) (x : MLModelCO2Measure) : EnumC v (.place .co2Measure) J.mlModelCO2Measure x (MLModelCO2Measure.Listed v x) := by
  refine EnumC.congr (enum_struct (
    enumF_plain (some .num) rfl rfl (ef_plain rfl) <|
    enumF_enum .str rfl rfl el_string <|
    enumF_nil)) ?_
  simp [MLModelCO2Measure.Listed, MLModelCO2Measure.toP]

theorem enum_mlModelEnergyMeasure (v : Int) (x : MLModelEnergyMeasure) : EnumC v (.place .energyMeasure) J.mlModelEnergyMeasure x (MLModelEnergyMeasure.Listed v x) := by
  refine EnumC.congr (enum_struct (
    enumF_plain (some .num) rfl rfl (ef_plain rfl) <|
    enumF_enum .str rfl rfl el_string <|
    enumF_nil)) ?_
  simp [MLModelEnergyMeasure.Listed, MLModelEnergyMeasure.toP]

theorem enum_mlModelEnergyProvider (v : Int) (x : MLModelEnergyProvider) : EnumC v (.place .energyProvider) J.mlModelEnergyProvider x (MLModelEnergyProvider.Listed v x) := by
  refine EnumC.congr (enum_struct (
    enumF_plain (some .str) rfl rfl (ef_plain rfl) <|
    enumF_plain (some .str) rfl rfl (ef_plain rfl) <|
    enumF_plain (some (.place .organizationalEntity)) rfl rfl (ef_opt_true (fun a _ => enum_organizationalEntity v a)) <|
    enumF_enum .str rfl rfl el_string <|
    enumF_field (some (.place .energyMeasure)) rfl rfl (ef_opt (fun a _ => enum_mlModelEnergyMeasure v a)) <|
    enumF_field (some (.list (.place .externalReference))) rfl rfl (ef_list (fun a _ => enum_externalReference v a)) <|
    enumF_nil)) ?_
  simp [MLModelEnergyProvider.Listed, MLModelEnergyProvider.toP]

theorem enum_mlModelEnergyConsumption (v : Int) (x : MLModelEnergyConsumption) : EnumC v (.place .energyConsumption) J.mlModelEnergyConsumption x (MLModelEnergyConsumption.Listed v x) := by
  refine EnumC.congr (enum_struct (
    enumF_enum .str rfl rfl el_string <|
    enumF_field (some (.list (.place .energyProvider))) rfl rfl (ef_list (fun a _ => enum_mlModelEnergyProvider v a)) <|
    enumF_field (some (.place .energyMeasure)) rfl rfl (ef_val (enum_mlModelEnergyMeasure v _)) <|
    enumF_field (some (.place .co2Measure)) rfl rfl (ef_opt (fun a _ => enum_mlModelCO2Measure v a)) <|
    enumF_field (some (.place .co2Measure)) rfl rfl (ef_opt (fun a _ => enum_mlModelCO2Measure v a)) <|
    enumF_plain (some (.list (.place .property))) rfl rfl (ef_list_true (fun a _ => enum_property v a)) <|
    enumF_nil)) ?_
  simp [MLModelEnergyConsumption.Listed, MLModelEnergyConsumption.toP]

theorem enum_mlModelCardEnvironmentalConsiderations (v : Int) (x : MLModelCardEnvironmentalConsiderations) : EnumC v (.place .environmentalConsiderations) J.mlModelCardEnvironmentalConsiderations x (MLModelCardEnvironmentalConsiderations.Listed v x) := by
  refine EnumC.congr (enum_struct (
    enumF_field (some (.list (.place .energyConsumption))) rfl rfl (ef_list (fun a _ => enum_mlModelEnergyConsumption v a)) <|
    enumF_plain (some (.list (.place .property))) rfl rfl (ef_list_true (fun a _ => enum_property v a)) <|
    enumF_nil)) ?_
  simp [MLModelCardEnvironmentalConsiderations.Listed, MLModelCardEnvironmentalConsiderations.toP]

theorem enum_mlModelCardEthicalConsideration (v : Int) (x : MLModelCardEthicalConsideration) : EnumC v (.place .risk) J.mlModelCardEthicalConsideration x True :=
  enum_struct (
    enumF_plain (some .str) rfl rfl (ef_plain rfl) <|
    enumF_plain (some .str) rfl rfl (ef_plain rfl) <|
    enumF_nil)

theorem enum_mlModelCardFairnessAssessment (v : Int) (x : MLModelCardFairnessAssessment) : EnumC v (.place .fairnessAssessment) J.mlModelCardFairnessAssessment x True :=
  enum_struct (
    enumF_plain (some .str) rfl rfl (ef_plain rfl) <|
    enumF_plain (some .str) rfl rfl (ef_plain rfl) <|
    enumF_plain (some .str) rfl rfl (ef_plain rfl) <|
    enumF_plain (some .str) rfl rfl (ef_plain rfl) <|
    enumF_nil)

theorem enum_mlModelCardConsiderations (v : Int) (x : MLModelCardConsiderations) : EnumC v (.place .modelCardConsiderations) J.mlModelCardConsiderations x (MLModelCardConsiderations.Listed v x) := by
  refine EnumC.congr (enum_struct (
    enumF_plain (some (.list .str)) rfl rfl (ef_plain rfl) <|
    enumF_plain (some (.list .str)) rfl rfl (ef_plain rfl) <|
    enumF_plain (some (.list .str)) rfl rfl (ef_plain rfl) <|
    enumF_plain (some (.list .str)) rfl rfl (ef_plain rfl) <|
    enumF_plain (some (.list (.place .risk))) rfl rfl (ef_list_true (fun a _ => enum_mlModelCardEthicalConsideration v a)) <|
    enumF_field (some (.since SpecVersion1_6 (.place .environmentalConsiderations))) rfl rfl (ef_since (ef_opt (fun a _ => enum_mlModelCardEnvironmentalConsiderations v a))) <|
    enumF_plain (some (.list (.place .fairnessAssessment))) rfl rfl (ef_list_true (fun a _ => enum_mlModelCardFairnessAssessment v a)) <|
    enumF_nil)) ?_
  simp [MLModelCardConsiderations.Listed, MLModelCardConsiderations.toP]

theorem enum_mlDatasetChoice (v : Int) (x : MLDatasetChoice) :
    EnumC v (.place .modelDataset) J.mlDatasetChoice x (x.Listed v) := by
  intro j hj
  simp only [J.mlDatasetChoice] at hj
  split at hj
  · rename_i hr
    simp only [Option.some.injEq] at hj
    subst hj
    simp only [MLDatasetChoice.Listed, hr, false_implies, iff_true, listed_place, List.mem_singleton, forall_eq]
    refine ⟨lists_none rfl _, fun s hs => ?_⟩
    cases hs
    exact .str _
  · rename_i hr
    have hr : x.ref = "" := by simpa using hr
    simp only [MLDatasetChoice.Listed, hr, true_implies]
    cases hd : x.componentData with
    | none =>
      simp only [hd, Option.some.injEq] at hj; subst hj; simp [listed_place]
    | some d =>
      simp only [hd] at hj
      simpa using enum_componentData_modelDataset v d j hj


theorem enum_mlInputOutputParameters (v : Int) (x : MLInputOutputParameters) : EnumC v (.place .inputOutputMLParameters) J.mlInputOutputParameters x True :=
  enum_struct (
    enumF_plain (some .str) rfl rfl (ef_plain rfl) <|
    enumF_nil)

theorem enum_mlModelParametersApproach (v : Int) (x : MLModelParametersApproach) : EnumC v (.place .modelCardModelParametersApproach) J.mlModelParametersApproach x (MLModelParametersApproach.Listed v x) := by
  refine EnumC.congr (enum_struct (
    enumF_enum .str rfl rfl el_string_oe <|
    enumF_nil)) ?_
  simp [MLModelParametersApproach.Listed, MLModelParametersApproach.toP]

theorem enum_mlModelParameters (v : Int) (x : MLModelParameters) : EnumC v (.place .modelCardModelParameters) J.mlModelParameters x (MLModelParameters.Listed v x) := by
  refine EnumC.congr (enum_struct (
    enumF_field (some (.place .modelCardModelParametersApproach)) rfl rfl (ef_opt (fun a _ => enum_mlModelParametersApproach v a)) <|
    enumF_plain (some .str) rfl rfl (ef_plain rfl) <|
    enumF_plain (some .str) rfl rfl (ef_plain rfl) <|
    enumF_plain (some .str) rfl rfl (ef_plain rfl) <|
    enumF_field (some (.list (.place .modelDataset))) rfl rfl (ef_list (fun a _ => enum_mlDatasetChoice v a)) <|
    enumF_plain (some (.list (.place .inputOutputMLParameters))) rfl rfl (ef_list_true (fun a _ => enum_mlInputOutputParameters v a)) <|
    enumF_plain (some (.list (.place .inputOutputMLParameters))) rfl rfl (ef_list_true (fun a _ => enum_mlInputOutputParameters v a)) <|
    enumF_nil)) ?_
  simp [MLModelParameters.Listed, MLModelParameters.toP]

theorem enum_mlPerformanceMetricConfidenceInterval (v : Int) (x : MLPerformanceMetricConfidenceInterval) : EnumC v (.place .performanceMetricConfidenceInterval) J.mlPerformanceMetricConfidenceInterval x True :=
  enum_struct (
    enumF_plain (some .str) rfl rfl (ef_plain rfl) <|
    enumF_plain (some .str) rfl rfl (ef_plain rfl) <|
    enumF_nil)

theorem enum_mlPerformanceMetric (v : Int) (x : MLPerformanceMetric) : EnumC v (.place .performanceMetric) J.mlPerformanceMetric x True :=
  enum_struct (
    enumF_plain (some .str) rfl rfl (ef_plain rfl) <|
    enumF_plain (some .str) rfl rfl (ef_plain rfl) <|
    enumF_plain (some .str) rfl rfl (ef_plain rfl) <|
    enumF_plain (some (.place .performanceMetricConfidenceInterval)) rfl rfl (ef_opt_true (fun a _ => enum_mlPerformanceMetricConfidenceInterval v a)) <|
    enumF_nil)

theorem enum_mlQuantitativeAnalysis (v : Int) (x : MLQuantitativeAnalysis) : EnumC v (.place .modelCardQuantitativeAnalysis) J.mlQuantitativeAnalysis x (MLQuantitativeAnalysis.Listed v x) := by
  refine EnumC.congr (enum_struct (
    enumF_plain (some (.list (.place .performanceMetric))) rfl rfl (ef_list_true (fun a _ => enum_mlPerformanceMetric v a)) <|
    enumF_field (some (.place .graphicsCollection)) rfl rfl (ef_opt (fun a _ => enum_componentDataGraphics v a)) <|
    enumF_nil)) ?_
  simp [MLQuantitativeAnalysis.Listed, MLQuantitativeAnalysis.toP]

theorem enum_mlModelCard (v : Int) (x : MLModelCard) : EnumC v (.place .modelCard) J.mlModelCard x (MLModelCard.Listed v x) := by
  refine EnumC.congr (enum_struct (
    enumF_plain (some .str) rfl rfl (ef_plain rfl) <|
    enumF_field (some (.place .modelCardModelParameters)) rfl rfl (ef_opt (fun a _ => enum_mlModelParameters v a)) <|
    enumF_field (some (.place .modelCardQuantitativeAnalysis)) rfl rfl (ef_opt (fun a _ => enum_mlQuantitativeAnalysis v a)) <|
    enumF_field (some (.place .modelCardConsiderations)) rfl rfl (ef_opt (fun a _ => enum_mlModelCardConsiderations v a)) <|
    enumF_nil)) ?_
  simp [MLModelCard.Listed, MLModelCard.toP]

theorem enum_identifiableAction (v : Int) (x : IdentifiableAction) : EnumC v (.place .identifiableAction) J.identifiableAction x True :=
  enum_struct (
    enumF_plain (some .str) rfl rfl (ef_plain rfl) <|
    enumF_plain (some .str) rfl rfl (ef_plain rfl) <|
    enumF_plain (some .str) rfl rfl (ef_plain rfl) <|
    enumF_nil)

theorem enum_commit (v : Int) (x : Commit) : EnumC v (.place .commit) J.commit x True :=
  enum_struct (
    enumF_plain (some .str) rfl rfl (ef_plain rfl) <|
    enumF_plain (some .str) rfl rfl (ef_plain rfl) <|
    enumF_plain (some (.place .identifiableAction)) rfl rfl (ef_opt_true (fun a _ => enum_identifiableAction v a)) <|
    enumF_plain (some (.place .identifiableAction)) rfl rfl (ef_opt_true (fun a _ => enum_identifiableAction v a)) <|
    enumF_plain (some .str) rfl rfl (ef_plain rfl) <|
    enumF_nil)

theorem enum_diff (v : Int) (x : Diff) : EnumC v (.place .diff) J.diff x (Diff.Listed v x) := by
  refine EnumC.congr (enum_struct (
    enumF_field (some (.place .attachment)) rfl rfl (ef_opt (fun a _ => enum_attachedText v a)) <|
    enumF_plain (some .str) rfl rfl (ef_plain rfl) <|
    enumF_nil)) ?_
  simp [Diff.Listed, Diff.toP]

theorem enum_source (v : Int) (x : Source) : EnumC v (.place .vulnerabilitySource) J.source x True :=
  enum_struct (
    enumF_plain (some .str) rfl rfl (ef_plain rfl) <|
    enumF_plain (some .str) rfl rfl (ef_plain rfl) <|
    enumF_nil)

theorem enum_source_issueSource (v : Int) (x : Source) : EnumC v (.place .issueSource) J.source x True :=
  enum_struct (
    enumF_plain (some .str) rfl rfl (ef_plain rfl) <|
    enumF_plain (some .str) rfl rfl (ef_plain rfl) <|
    enumF_nil)

theorem enum_issue (v : Int) (x : Issue) : EnumC v (.place .issue) J.issue x (Issue.Listed v x) := by
  refine EnumC.congr (enum_struct (
    enumF_plain (some .str) rfl rfl (ef_plain rfl) <|
    enumF_plain (some .str) rfl rfl (ef_plain rfl) <|
    enumF_plain (some .str) rfl rfl (ef_plain rfl) <|
    enumF_plain (some (.place .issueSource)) rfl rfl (ef_opt_true (fun a _ => enum_source_issueSource v a)) <|
    enumF_plain (some (.list .str)) rfl rfl (ef_plain rfl) <|
    enumF_enum .str rfl rfl el_string <|
    enumF_nil)) ?_
  simp [Issue.Listed, Issue.toP]

theorem enum_patch (v : Int) (x : Patch) : EnumC v (.place .patch) J.patch x (Patch.Listed v x) := by
  refine EnumC.congr (enum_struct (
    enumF_field (some (.place .diff)) rfl rfl (ef_opt (fun a _ => enum_diff v a)) <|
    enumF_field (some (.list (.place .issue))) rfl rfl (ef_list (fun a _ => enum_issue v a)) <|
    enumF_enum .str rfl rfl el_string <|
    enumF_nil)) ?_
  simp [Patch.Listed, Patch.toP]

theorem enum_pedigreeWith (C : JCodec Component) (v : Int) (x : Pedigree Component)
    (h_ancestors : ∀ c ∈ x.ancestors.elems, EnumC v (.place .component) C c (c.Listed v))
    (h_descendants : ∀ c ∈ x.descendants.elems, EnumC v (.place .component) C c (c.Listed v))
    (h_variants : ∀ c ∈ x.variants.elems, EnumC v (.place .component) C c (c.Listed v)) :
    EnumC v (.place .componentPedigree) (J.pedigree C) x (ListedPedigree v x) := by
  refine EnumC.congr (enum_struct (
    enumF_field (some (.list (.place .component))) rfl rfl (ef_list h_ancestors) <|
    enumF_field (some (.list (.place .component))) rfl rfl (ef_list h_descendants) <|
    enumF_field (some (.list (.place .component))) rfl rfl (ef_list h_variants) <|
    enumF_plain (some (.list (.place .commit))) rfl rfl (ef_list_true (fun a _ => enum_commit v a)) <|
    enumF_field (some (.list (.place .patch))) rfl rfl (ef_list (fun a _ => enum_patch v a)) <|
    enumF_plain (some .str) rfl rfl (ef_plain rfl) <|
    enumF_nil)) ?_
  cases x
  simp only [ListedPedigree, Pedigree.toP, listedComponents_iff, and_true, and_assoc]


theorem enum_note (v : Int) (x : Note) : EnumC v (.place .note) J.note x (Note.Listed v x) := by
  refine EnumC.congr (enum_struct (
    enumF_plain (some .str) rfl rfl (ef_plain rfl) <|
    enumF_field (some (.place .attachment)) rfl rfl (ef_val (enum_attachedText v _)) <|
    enumF_nil)) ?_
  simp [Note.Listed, Note.toP]

theorem enum_releaseNotes (v : Int) (x : ReleaseNotes) : EnumC v (.place .releaseNotes) J.releaseNotes x (ReleaseNotes.Listed v x) := by
  refine EnumC.congr (enum_struct (
    enumF_plain (some .str) rfl rfl (ef_plain rfl) <|
    enumF_plain (some .str) rfl rfl (ef_plain rfl) <|
    enumF_plain (some .str) rfl rfl (ef_plain rfl) <|
    enumF_plain (some .str) rfl rfl (ef_plain rfl) <|
    enumF_plain (some .str) rfl rfl (ef_plain rfl) <|
    enumF_plain (some .str) rfl rfl (ef_plain rfl) <|
    enumF_plain (some (.list .str)) rfl rfl (ef_plain rfl) <|
    enumF_plain (some (.list .str)) rfl rfl (ef_plain rfl) <|
    enumF_field (some (.list (.place .issue))) rfl rfl (ef_list (fun a _ => enum_issue v a)) <|
    enumF_field (some (.list (.place .note))) rfl rfl (ef_list (fun a _ => enum_note v a)) <|
    enumF_plain (some (.list (.place .property))) rfl rfl (ef_list_true (fun a _ => enum_property v a)) <|
    enumF_nil)) ?_
  simp [ReleaseNotes.Listed, ReleaseNotes.toP]

theorem enum_swid (v : Int) (x : SWID) : EnumC v (.place .swid) J.swid x (SWID.Listed v x) := by
  refine EnumC.congr (enum_struct (
    enumF_field (some (.place .attachment)) rfl rfl (ef_opt (fun a _ => enum_attachedText v a)) <|
    enumF_plain (some .str) rfl rfl (ef_plain rfl) <|
    enumF_plain (some .str) rfl rfl (ef_plain rfl) <|
    enumF_plain (some .str) rfl rfl (ef_plain rfl) <|
    enumF_plain (some .str) rfl rfl (ef_plain rfl) <|
    enumF_plain (some .int) rfl rfl (ef_plain rfl) <|
    enumF_plain (some .bool) rfl rfl (ef_plain rfl) <|
    enumF_nil)) ?_
  simp [SWID.Listed, SWID.toP]

theorem enum_asserterChoice (v : Int) (x : AsserterChoice) :
    EnumC v (.alt .str (.place .asserter)) J.asserterChoice x True := by
  intro j hj
  have no : ∀ (k : String) (j : Json), Place.asserter.members.lookup k = none →
      HasListed v (.alt .str (.place .asserter)) (.obj [(k, j)]) := by
    intro k j hk
    rw [listed_alt, listed_place]
    refine ⟨.str _, fun m hm => ?_⟩
    rw [List.mem_singleton] at hm
    subst hm
    refine ⟨lists_none rfl _, fun s hs => ?_⟩
    rw [hk] at hs
    cases hs
  obtain ⟨a, b, c⟩ := x
  refine iff_true_intro ?_
  cases a with
  | some o =>
    simp only [J.asserterChoice, Option.map_eq_some_iff] at hj
    obtain ⟨j', _, rfl⟩ := hj
    exact no "organization" j' rfl
  | none =>
    cases b with
    | some o =>
      simp only [J.asserterChoice, Option.map_eq_some_iff] at hj
      obtain ⟨j', _, rfl⟩ := hj
      exact no "individual" j' rfl
    | none =>
      cases c with
      | some o =>
        simp only [J.asserterChoice, Option.map_eq_some_iff] at hj
        obtain ⟨j', _, rfl⟩ := hj
        exact no "ref" j' rfl
      | none =>
        simp only [J.asserterChoice, Option.some.injEq] at hj
        subst hj
        exact .alt (.str _) (.place (by simp) (by simp))


theorem enum_patentAssertion (v : Int) (x : PatentAssertion) : EnumC v (.place .patentAssertion) J.patentAssertion x (PatentAssertion.Listed v x) := by
  refine EnumC.congr (enum_struct (
    enumF_plain (some .str) rfl rfl (ef_plain rfl) <|
    enumF_plain (some (.list .str)) rfl rfl (ef_plain rfl) <|
    enumF_enum .str rfl rfl el_string <|
    enumF_plain (some (.alt .str (.place .asserter))) rfl rfl (ef_opt_true (fun a _ => enum_asserterChoice v a)) <|
    enumF_plain (some .str) rfl rfl (ef_plain rfl) <|
    enumF_nil)) ?_
  simp [PatentAssertion.Listed, PatentAssertion.toP]

theorem enum_componentWith (C : JCodec Component) (v : Int) (x : Component)
    (h_components : ∀ c ∈ x.components.elems, EnumC v (.place .component) C c (c.Listed v))
    (h_pedigree : ∀ p ∈ x.pedigree, EnumC v (.place .componentPedigree) (J.pedigree C) p (ListedPedigree v p)) :
    EnumC v (.place .component) (J.componentWith C) x (x.Listed v) := by
  refine EnumC.congr (enum_struct (
    enumF_plain (some .str) rfl rfl (ef_plain rfl) <|
    enumF_plain (some .str) rfl rfl (ef_plain rfl) <|
    enumF_enum .str rfl rfl el_string <|
    enumF_plain (some (.place .organizationalEntity)) rfl rfl (ef_opt_true (fun a _ => enum_organizationalEntity v a)) <|
    enumF_plain (some (.since SpecVersion1_6 (.place .organizationalEntity))) rfl rfl (ef_since (ef_opt_true (fun a _ => enum_organizationalEntity v a))) <|
    enumF_plain (some .str) rfl rfl (ef_plain rfl) <|
    enumF_plain (some (.since SpecVersion1_6 (.list (.place .organizationalContact)))) rfl rfl (ef_since (ef_list_true (fun a _ => enum_organizationalContact v a))) <|
    enumF_plain (some .str) rfl rfl (ef_plain rfl) <|
    enumF_plain (some .str) rfl rfl (ef_plain rfl) <|
    enumF_plain (some .str) rfl rfl (ef_plain rfl) <|
    enumF_plain (some .str) rfl rfl (ef_plain rfl) <|
    enumF_plain (some .str) rfl rfl (ef_plain rfl) <|
    enumF_enum .str rfl rfl el_string_oe <|
    enumF_field (some (.list (.place .hash))) rfl rfl (ef_list (fun a _ => enum_hash v a)) <|
    enumF_field (some (.list (.place .licenseChoice))) rfl rfl (ef_list (fun a _ => enum_licenseChoice v a)) <|
    enumF_plain (some .str) rfl rfl (ef_plain rfl) <|
    enumF_plain (some .str) rfl rfl (ef_plain rfl) <|
    enumF_plain (some .str) rfl rfl (ef_plain rfl) <|
    enumF_plain (some (.since SpecVersion1_6 (.list .str))) rfl rfl (ef_plain rfl) <|
    enumF_plain (some (.since SpecVersion1_6 (.list .str))) rfl rfl (ef_plain rfl) <|
    enumF_field (some (.place .swid)) rfl rfl (ef_opt (fun a _ => enum_swid v a)) <|
    enumF_plain (some .bool) rfl rfl (ef_plain rfl) <|
    enumF_field (some (.place .componentPedigree)) rfl rfl (ef_opt h_pedigree) <|
    enumF_field (some (.list (.place .externalReference))) rfl rfl (ef_list (fun a _ => enum_externalReference v a)) <|
    enumF_plain (some (.since SpecVersion1_3 (.list (.place .property)))) rfl rfl (ef_since (ef_list_true (fun a _ => enum_property v a))) <|
    enumF_field (some (.list (.place .component))) rfl rfl (ef_list h_components) <|
    enumF_field (some (.since SpecVersion1_3 (.place .componentEvidence))) rfl rfl (ef_since (ef_opt (fun a _ => enum_evidence v a))) <|
    enumF_field (some (.since SpecVersion1_4 (.place .releaseNotes))) rfl rfl (ef_since (ef_opt (fun a _ => enum_releaseNotes v a))) <|
    enumF_field (some (.since SpecVersion1_5 (.place .modelCard))) rfl rfl (ef_since (ef_opt (fun a _ => enum_mlModelCard v a))) <|
    enumF_field (some (.since SpecVersion1_5 (.list (.place .componentData)))) rfl rfl (ef_since (ef_list (fun a _ => enum_componentData v a))) <|
    enumF_field (some (.since SpecVersion1_6 (.place .cryptoProperties))) rfl rfl (ef_since (ef_opt (fun a _ => enum_cryptoProperties v a))) <|
    enumF_plain (some (.since SpecVersion1_6 (.list .str))) rfl rfl (ef_plain rfl) <|
    enumF_plain (some (.since SpecVersion1_7 .bool)) rfl rfl (ef_plain rfl) <|
    enumF_field (some (.since SpecVersion1_7 (.list (.place .patentAssertion)))) rfl rfl (ef_since (ef_list (fun a _ => enum_patentAssertion v a))) <|
    enumF_plain (some (.since SpecVersion1_7 .str)) rfl rfl (ef_plain rfl) <|
    enumF_field (some (.since SpecVersion1_4 (.place .signature))) rfl rfl (ef_since (ef_opt (fun a _ => enum_jsfSignature v a))) <|
    enumF_nil)) ?_
  cases x
  simp [Component.Listed, Component.toP, listedComponents_iff,
    listedPedigreeOpt_iff]

theorem enum_component (v : Int) (x : Component) : EnumC v (.place .component) J.component x (x.Listed v) := by
  suffices H : ∀ n (x : Component), x.height ≤ n → EnumC v (.place .component) J.component x (x.Listed v) from
    H x.height x (Nat.le_refl _)
  intro n
  induction n with
  | zero => intro x h; rw [Component.height_eq] at h; omega
  | succ n ih =>
    intro x h
    refine (component_sameAt_self x).enumC ?_
    rw [Component.height_eq] at h
    have hm : max (heightComponents x.components) (heightPedigreeOpt x.pedigree) ≤ n := by omega
    rw [Nat.max_le] at hm
    have hl : ∀ p : PSlice Component, heightComponents p ≤ n →
        ∀ c ∈ p.elems, EnumC v (.place .component) J.component c (c.Listed v) := by
      intro p hp
      rw [heightComponents_le] at hp
      exact fun c hc => ih c (hp c hc)
    refine enum_componentWith _ v x (hl _ hm.1) ?_
    intro p hp
    have hp : x.pedigree = some p := hp
    have hm := hm.2
    simp only [hp, heightPedigreeOpt, heightPedigree_eq, Nat.max_le] at hm
    exact enum_pedigreeWith _ v p (hl _ hm.1) (hl _ hm.2.1) (hl _ hm.2.2)


theorem enum_dataClassification (v : Int) (x : DataClassification) : EnumC v (.place .serviceData) J.dataClassification x (DataClassification.Listed v x) := by
  refine EnumC.congr (enum_struct (
    enumF_enum .str rfl rfl el_string <|
    enumF_plain (some .str) rfl rfl (ef_plain rfl) <|
    enumF_plain (some (.since SpecVersion1_5 .str)) rfl rfl (ef_plain rfl) <|
    enumF_plain (some (.since SpecVersion1_5 .str)) rfl rfl (ef_plain rfl) <|
    enumF_plain (some (.since SpecVersion1_5 (.place .dataGovernance))) rfl rfl (ef_since (ef_opt_true (fun a _ => enum_dataGovernance v a))) <|
    enumF_plain (some (.since SpecVersion1_5 (.list .str))) rfl rfl (ef_plain rfl) <|
    enumF_plain (some (.since SpecVersion1_5 (.list .str))) rfl rfl (ef_plain rfl) <|
    enumF_nil)) ?_
  simp [DataClassification.Listed, DataClassification.toP]

theorem enum_serviceWith (C : JCodec Service) (v : Int) (x : Service)
    (h_services : ∀ c ∈ x.services.elems, EnumC v (.place .service) C c (c.Listed v)) :
    EnumC v (.place .service) (J.serviceWith C) x (x.Listed v) := by
  refine EnumC.congr (enum_struct (
    enumF_plain (some .str) rfl rfl (ef_plain rfl) <|
    enumF_plain (some (.place .organizationalEntity)) rfl rfl (ef_opt_true (fun a _ => enum_organizationalEntity v a)) <|
    enumF_plain (some .str) rfl rfl (ef_plain rfl) <|
    enumF_plain (some .str) rfl rfl (ef_plain rfl) <|
    enumF_plain (some .str) rfl rfl (ef_plain rfl) <|
    enumF_plain (some .str) rfl rfl (ef_plain rfl) <|
    enumF_plain (some (.list .str)) rfl rfl (ef_plain rfl) <|
    enumF_plain (some .bool) rfl rfl (ef_plain rfl) <|
    enumF_plain (some .bool) rfl rfl (ef_plain rfl) <|
    enumF_field (some (.list (.place .serviceData))) rfl rfl (ef_list (fun a _ => enum_dataClassification v a)) <|
    enumF_field (some (.list (.place .licenseChoice))) rfl rfl (ef_list (fun a _ => enum_licenseChoice v a)) <|
    enumF_field (some (.list (.place .externalReference))) rfl rfl (ef_list (fun a _ => enum_externalReference v a)) <|
    enumF_plain (some (.since SpecVersion1_3 (.list (.place .property)))) rfl rfl (ef_since (ef_list_true (fun a _ => enum_property v a))) <|
    enumF_field (some (.list (.place .service))) rfl rfl (ef_list h_services) <|
    enumF_field (some (.since SpecVersion1_4 (.place .releaseNotes))) rfl rfl (ef_since (ef_opt (fun a _ => enum_releaseNotes v a))) <|
    enumF_plain (some (.since SpecVersion1_6 (.list .str))) rfl rfl (ef_plain rfl) <|
    enumF_plain (some (.since SpecVersion1_5 .str)) rfl rfl (ef_plain rfl) <|
    enumF_field (some (.since SpecVersion1_7 (.list (.place .patentAssertion)))) rfl rfl (ef_since (ef_list (fun a _ => enum_patentAssertion v a))) <|
    enumF_field (some (.since SpecVersion1_4 (.place .signature))) rfl rfl (ef_since (ef_opt (fun a _ => enum_jsfSignature v a))) <|
    enumF_nil)) ?_
  cases x
  simp [Service.Listed, Service.toP, listedServices_iff]

theorem enum_service (v : Int) (x : Service) : EnumC v (.place .service) J.service x (x.Listed v) := by
  suffices H : ∀ n (x : Service), x.height ≤ n → EnumC v (.place .service) J.service x (x.Listed v) from
    H x.height x (Nat.le_refl _)
  intro n
  induction n with
  | zero => intro x h; rw [Service.height_eq] at h; omega
  | succ n ih =>
    intro x h
    refine (service_sameAt_self x).enumC ?_
    rw [Service.height_eq] at h
    have hm : heightServices x.services ≤ n := by omega
    rw [heightServices_le] at hm
    exact enum_serviceWith _ v x fun c hc => ih c (hm c hc)


theorem enum_annotator (v : Int) (x : Annotator) : EnumC v (.place .annotationsAnnotator) J.annotator x (Annotator.Listed v x) := by
  refine EnumC.congr (enum_struct (
    enumF_plain (some (.place .organizationalEntity)) rfl rfl (ef_opt_true (fun a _ => enum_organizationalEntity v a)) <|
    enumF_plain (some (.place .organizationalContact)) rfl rfl (ef_opt_true (fun a _ => enum_organizationalContact v a)) <|
    enumF_field (some (.place .component)) rfl rfl (ef_opt (fun a _ => enum_component v a)) <|
    enumF_field (some (.place .service)) rfl rfl (ef_opt (fun a _ => enum_service v a)) <|
    enumF_nil)) ?_
  simp [Annotator.Listed, Annotator.toP]

theorem enum_annotation (v : Int) (x : Annotation) : EnumC v (.place .annotations) J.annotation x (Annotation.Listed v x) := by
  refine EnumC.congr (enum_struct (
    enumF_plain (some .str) rfl rfl (ef_plain rfl) <|
    enumF_plain (some (.list .str)) rfl rfl (ef_plain rfl) <|
    enumF_field (some (.place .annotationsAnnotator)) rfl rfl (ef_opt (fun a _ => enum_annotator v a)) <|
    enumF_plain (some .str) rfl rfl (ef_plain rfl) <|
    enumF_plain (some .str) rfl rfl (ef_plain rfl) <|
    enumF_field (some (.place .signature)) rfl rfl (ef_opt (fun a _ => enum_jsfSignature v a)) <|
    enumF_nil)) ?_
  simp [Annotation.Listed, Annotation.toP]

theorem enum_assessor (v : Int) (x : Assessor) : EnumC v (.place .assessors) J.assessor x True :=
  enum_struct (
    enumF_plain (some .str) rfl rfl (ef_plain rfl) <|
    enumF_plain (some .bool) rfl rfl (ef_plain rfl) <|
    enumF_plain (some (.place .organizationalEntity)) rfl rfl (ef_opt_true (fun a _ => enum_organizationalEntity v a)) <|
    enumF_nil)

theorem enum_attestationConformance (v : Int) (x : AttestationConformance) : EnumC v (.place .conformance) J.attestationConformance x True :=
  enum_struct (
    enumF_plain (some .num) rfl rfl (ef_plain rfl) <|
    enumF_plain (some .str) rfl rfl (ef_plain rfl) <|
    enumF_plain (some (.list .str)) rfl rfl (ef_plain rfl) <|
    enumF_nil)

theorem enum_attestationConfidence (v : Int) (x : AttestationConfidence) : EnumC v (.place .confidence) J.attestationConfidence x True :=
  enum_struct (
    enumF_plain (some .num) rfl rfl (ef_plain rfl) <|
    enumF_plain (some .str) rfl rfl (ef_plain rfl) <|
    enumF_nil)

theorem enum_attestationMap (v : Int) (x : AttestationMap) : EnumC v (.place .attestationMap) J.attestationMap x True :=
  enum_struct (
    enumF_plain (some .str) rfl rfl (ef_plain rfl) <|
    enumF_plain (some (.list .str)) rfl rfl (ef_plain rfl) <|
    enumF_plain (some (.list .str)) rfl rfl (ef_plain rfl) <|
    enumF_plain (some (.place .conformance)) rfl rfl (ef_opt_true (fun a _ => enum_attestationConformance v a)) <|
    enumF_plain (some (.place .confidence)) rfl rfl (ef_opt_true (fun a _ => enum_attestationConfidence v a)) <|
    enumF_nil)

theorem enum_attestation (v : Int) (x : Attestation) : EnumC v (.place .attestations) J.attestation x (Attestation.Listed v x) := by
  refine EnumC.congr (enum_struct (
    enumF_plain (some .str) rfl rfl (ef_plain rfl) <|
    enumF_plain (some .str) rfl rfl (ef_plain rfl) <|
    enumF_plain (some (.list (.place .attestationMap))) rfl rfl (ef_list_true (fun a _ => enum_attestationMap v a)) <|
    enumF_field (some (.place .signature)) rfl rfl (ef_opt (fun a _ => enum_jsfSignature v a)) <|
    enumF_nil)) ?_
  simp [Attestation.Listed, Attestation.toP]

theorem enum_composition (v : Int) (x : Composition) : EnumC v (.place .compositions) J.composition x (Composition.Listed v x) := by
  refine EnumC.congr (enum_struct (
    enumF_plain (some (.since SpecVersion1_5 .str)) rfl rfl (ef_plain rfl) <|
    enumF_enum .str rfl rfl el_string <|
    enumF_plain (some (.list .str)) rfl rfl (ef_plain rfl) <|
    enumF_plain (some (.list .str)) rfl rfl (ef_plain rfl) <|
    enumF_plain (some (.since SpecVersion1_5 (.list .str))) rfl rfl (ef_plain rfl) <|
    enumF_field (some (.since SpecVersion1_4 (.place .signature))) rfl rfl (ef_since (ef_opt (fun a _ => enum_jsfSignature v a))) <|
    enumF_nil)) ?_
  simp [Composition.Listed, Composition.toP]

theorem enum_claim (v : Int) (x : Claim) : EnumC v (.place .claims) J.claim x (Claim.Listed v x) := by
  refine EnumC.congr (enum_struct (
    enumF_plain (some .str) rfl rfl (ef_plain rfl) <|
    enumF_plain (some .str) rfl rfl (ef_plain rfl) <|
    enumF_plain (some .str) rfl rfl (ef_plain rfl) <|
    enumF_plain (some (.list .str)) rfl rfl (ef_plain rfl) <|
    enumF_plain (some .str) rfl rfl (ef_plain rfl) <|
    enumF_plain (some (.list .str)) rfl rfl (ef_plain rfl) <|
    enumF_plain (some (.list .str)) rfl rfl (ef_plain rfl) <|
    enumF_field (some (.list (.place .externalReference))) rfl rfl (ef_list (fun a _ => enum_externalReference v a)) <|
    enumF_field (some (.place .signature)) rfl rfl (ef_opt (fun a _ => enum_jsfSignature v a)) <|
    enumF_nil)) ?_
  simp [Claim.Listed, Claim.toP]

theorem enum_evidenceDataContents (v : Int) (x : EvidenceDataContents) : EnumC v (.place .evidenceDataContents) J.evidenceDataContents x (EvidenceDataContents.Listed v x) := by
  refine EnumC.congr (enum_struct (
    enumF_field (some (.place .attachment)) rfl rfl (ef_opt (fun a _ => enum_attachedText v a)) <|
    enumF_plain (some .str) rfl rfl (ef_plain rfl) <|
    enumF_nil)) ?_
  simp [EvidenceDataContents.Listed, EvidenceDataContents.toP]

theorem enum_evidenceData (v : Int) (x : EvidenceData) : EnumC v (.place .evidenceData) J.evidenceData x (EvidenceData.Listed v x) := by
  refine EnumC.congr (enum_struct (
    enumF_plain (some .str) rfl rfl (ef_plain rfl) <|
    enumF_field (some (.place .evidenceDataContents)) rfl rfl (ef_opt (fun a _ => enum_evidenceDataContents v a)) <|
    enumF_plain (some .str) rfl rfl (ef_plain rfl) <|
    enumF_plain (some (.list .str)) rfl rfl (ef_plain rfl) <|
    enumF_plain (some (.place .dataGovernance)) rfl rfl (ef_opt_true (fun a _ => enum_dataGovernance v a)) <|
    enumF_nil)) ?_
  simp [EvidenceData.Listed, EvidenceData.toP]

theorem enum_declarationEvidence (v : Int) (x : DeclarationEvidence) : EnumC v (.place .evidence) J.declarationEvidence x (DeclarationEvidence.Listed v x) := by
  refine EnumC.congr (enum_struct (
    enumF_plain (some .str) rfl rfl (ef_plain rfl) <|
    enumF_plain (some .str) rfl rfl (ef_plain rfl) <|
    enumF_plain (some .str) rfl rfl (ef_plain rfl) <|
    enumF_field (some (.list (.place .evidenceData))) rfl rfl (ef_list (fun a _ => enum_evidenceData v a)) <|
    enumF_plain (some .str) rfl rfl (ef_plain rfl) <|
    enumF_plain (some .str) rfl rfl (ef_plain rfl) <|
    enumF_plain (some (.place .organizationalContact)) rfl rfl (ef_opt_true (fun a _ => enum_organizationalContact v a)) <|
    enumF_plain (some (.place .organizationalContact)) rfl rfl (ef_opt_true (fun a _ => enum_organizationalContact v a)) <|
    enumF_field (some (.place .signature)) rfl rfl (ef_opt (fun a _ => enum_jsfSignature v a)) <|
    enumF_nil)) ?_
  simp [DeclarationEvidence.Listed, DeclarationEvidence.toP]

theorem enum_targets (v : Int) (x : Targets) : EnumC v (.place .targets) J.targets x (Targets.Listed v x) := by
  refine EnumC.congr (enum_struct (
    enumF_plain (some (.list (.place .organizationalEntity))) rfl rfl (ef_list_true (fun a _ => enum_organizationalEntity v a)) <|
    enumF_field (some (.list (.place .component))) rfl rfl (ef_list (fun a _ => enum_component v a)) <|
    enumF_field (some (.list (.place .service))) rfl rfl (ef_list (fun a _ => enum_service v a)) <|
    enumF_nil)) ?_
  simp [Targets.Listed, Targets.toP]

theorem enum_signatory (v : Int) (x : Signatory) : EnumC v (.place .affirmationSignatories) J.signatory x (Signatory.Listed v x) := by
  refine EnumC.congr (enum_struct (
    enumF_plain (some .str) rfl rfl (ef_plain rfl) <|
    enumF_plain (some .str) rfl rfl (ef_plain rfl) <|
    enumF_field (some (.place .signature)) rfl rfl (ef_opt (fun a _ => enum_jsfSignature v a)) <|
    enumF_plain (some (.place .organizationalEntity)) rfl rfl (ef_opt_true (fun a _ => enum_organizationalEntity v a)) <|
    enumF_field (some (.place .externalReference)) rfl rfl (ef_opt (fun a _ => enum_externalReference v a)) <|
    enumF_nil)) ?_
  simp [Signatory.Listed, Signatory.toP]

theorem enum_affirmation (v : Int) (x : Affirmation) : EnumC v (.place .affirmation) J.affirmation x (Affirmation.Listed v x) := by
  refine EnumC.congr (enum_struct (
    enumF_plain (some .str) rfl rfl (ef_plain rfl) <|
    enumF_field (some (.list (.place .affirmationSignatories))) rfl rfl (ef_list (fun a _ => enum_signatory v a)) <|
    enumF_field (some (.place .signature)) rfl rfl (ef_opt (fun a _ => enum_jsfSignature v a)) <|
    enumF_nil)) ?_
  simp [Affirmation.Listed, Affirmation.toP]

theorem enum_declarations (v : Int) (x : Declarations) : EnumC v (.place .bomDeclarations) J.declarations x (Declarations.Listed v x) := by
  refine EnumC.congr (enum_struct (
    enumF_plain (some (.list (.place .assessors))) rfl rfl (ef_list_true (fun a _ => enum_assessor v a)) <|
    enumF_field (some (.list (.place .attestations))) rfl rfl (ef_list (fun a _ => enum_attestation v a)) <|
    enumF_field (some (.list (.place .claims))) rfl rfl (ef_list (fun a _ => enum_claim v a)) <|
    enumF_field (some (.list (.place .evidence))) rfl rfl (ef_list (fun a _ => enum_declarationEvidence v a)) <|
    enumF_field (some (.place .targets)) rfl rfl (ef_opt (fun a _ => enum_targets v a)) <|
    enumF_field (some (.place .affirmation)) rfl rfl (ef_opt (fun a _ => enum_affirmation v a)) <|
    enumF_field (some (.place .signature)) rfl rfl (ef_opt (fun a _ => enum_jsfSignature v a)) <|
    enumF_nil)) ?_
  simp [Declarations.Listed, Declarations.toP]

theorem enum_priorityApplication (v : Int) (x : PriorityApplication) : EnumC v (.place .priorityApplication) J.priorityApplication x True :=
  enum_struct (
    enumF_plain (some .str) rfl rfl (ef_plain rfl) <|
    enumF_plain (some .str) rfl rfl (ef_plain rfl) <|
    enumF_plain (some .str) rfl rfl (ef_plain rfl) <|
    enumF_nil)

theorem enum_patent (v : Int) (x : Patent) : EnumC v (.place .patentOrFamily) J.patent x (Patent.Listed v x) := by
  refine EnumC.congr (enum_struct (
    enumF_plain (some .str) rfl rfl (ef_plain rfl) <|
    enumF_plain (some .str) rfl rfl (ef_plain rfl) <|
    enumF_plain (some .str) rfl rfl (ef_plain rfl) <|
    enumF_plain (some .str) rfl rfl (ef_plain rfl) <|
    enumF_plain (some (.place .priorityApplication)) rfl rfl (ef_opt_true (fun a _ => enum_priorityApplication v a)) <|
    enumF_plain (some .str) rfl rfl (ef_plain rfl) <|
    enumF_plain (some .str) rfl rfl (ef_plain rfl) <|
    enumF_plain (some .str) rfl rfl (ef_plain rfl) <|
    enumF_plain (some .str) rfl rfl (ef_plain rfl) <|
    enumF_plain (some .str) rfl rfl (ef_plain rfl) <|
    enumF_plain (some .str) rfl rfl (ef_plain rfl) <|
    enumF_enum .str rfl rfl el_string <|
    enumF_plain (some (.list (.place .patentAssignee))) rfl rfl (ef_list_true (fun a _ => enum_organizationalEntityOrContact_patentAssignee v a)) <|
    enumF_field (some (.list (.place .externalReference))) rfl rfl (ef_list (fun a _ => enum_externalReference v a)) <|
    enumF_nil)) ?_
  simp [Patent.Listed, Patent.toP]

theorem enum_patentFamily (v : Int) (x : PatentFamily) : EnumC v (.place .patentOrFamily) J.patentFamily x (PatentFamily.Listed v x) := by
  refine EnumC.congr (enum_struct (
    enumF_plain (some .str) rfl rfl (ef_plain rfl) <|
    enumF_plain (some .str) rfl rfl (ef_plain rfl) <|
    enumF_plain (some (.place .priorityApplication)) rfl rfl (ef_opt_true (fun a _ => enum_priorityApplication v a)) <|
    enumF_plain (some (.list .str)) rfl rfl (ef_plain rfl) <|
    enumF_field (some (.list (.place .externalReference))) rfl rfl (ef_list (fun a _ => enum_externalReference v a)) <|
    enumF_nil)) ?_
  simp [PatentFamily.Listed, PatentFamily.toP]

theorem enum_patentChoice (v : Int) (x : PatentChoice) :
    EnumC v (.place .patentOrFamily) J.patentChoice x (x.Listed v) := by
  intro j hj
  obtain ⟨a, b⟩ := x
  cases a <;> cases b <;> simp only [J.patentChoice] at hj
  · simp only [Option.some.injEq] at hj; subst hj; simp [listed_place, PatentChoice.Listed]
  · simp [PatentChoice.Listed, enum_patentFamily v _ j hj]
  · simp [PatentChoice.Listed, enum_patent v _ j hj]
  · simp [PatentChoice.Listed, enum_patent v _ j hj]


theorem enum_standardRequirement (v : Int) (x : StandardRequirement) : EnumC v (.place .standardRequirements) J.standardRequirement x (StandardRequirement.Listed v x) := by
  refine EnumC.congr (enum_struct (
    enumF_plain (some .str) rfl rfl (ef_plain rfl) <|
    enumF_plain (some .str) rfl rfl (ef_plain rfl) <|
    enumF_plain (some .str) rfl rfl (ef_plain rfl) <|
    enumF_plain (some .str) rfl rfl (ef_plain rfl) <|
    enumF_plain (some (.list .str)) rfl rfl (ef_plain rfl) <|
    enumF_plain (some (.list .str)) rfl rfl (ef_plain rfl) <|
    enumF_plain (some .str) rfl rfl (ef_plain rfl) <|
    enumF_plain (some (.list (.place .property))) rfl rfl (ef_list_true (fun a _ => enum_property v a)) <|
    enumF_field (some (.list (.place .externalReference))) rfl rfl (ef_list (fun a _ => enum_externalReference v a)) <|
    enumF_nil)) ?_
  simp [StandardRequirement.Listed, StandardRequirement.toP]

theorem enum_standardLevel (v : Int) (x : StandardLevel) : EnumC v (.place .standardLevels) J.standardLevel x True :=
  enum_struct (
    enumF_plain (some .str) rfl rfl (ef_plain rfl) <|
    enumF_plain (some .str) rfl rfl (ef_plain rfl) <|
    enumF_plain (some .str) rfl rfl (ef_plain rfl) <|
    enumF_plain (some .str) rfl rfl (ef_plain rfl) <|
    enumF_plain (some (.list .str)) rfl rfl (ef_plain rfl) <|
    enumF_nil)

theorem enum_standardDefinition (v : Int) (x : StandardDefinition) : EnumC v (.place .standard) J.standardDefinition x (StandardDefinition.Listed v x) := by
  refine EnumC.congr (enum_struct (
    enumF_plain (some .str) rfl rfl (ef_plain rfl) <|
    enumF_plain (some .str) rfl rfl (ef_plain rfl) <|
    enumF_plain (some .str) rfl rfl (ef_plain rfl) <|
    enumF_plain (some .str) rfl rfl (ef_plain rfl) <|
    enumF_plain (some .str) rfl rfl (ef_plain rfl) <|
    enumF_field (some (.list (.place .standardRequirements))) rfl rfl (ef_list (fun a _ => enum_standardRequirement v a)) <|
    enumF_plain (some (.list (.place .standardLevels))) rfl rfl (ef_list_true (fun a _ => enum_standardLevel v a)) <|
    enumF_field (some (.list (.place .externalReference))) rfl rfl (ef_list (fun a _ => enum_externalReference v a)) <|
    enumF_field (some (.place .signature)) rfl rfl (ef_opt (fun a _ => enum_jsfSignature v a)) <|
    enumF_nil)) ?_
  simp [StandardDefinition.Listed, StandardDefinition.toP]

theorem enum_definitions (v : Int) (x : Definitions) : EnumC v (.place .bomDefinitions) J.definitions x (Definitions.Listed v x) := by
  refine EnumC.congr (enum_struct (
    enumF_field (some (.list (.place .standard))) rfl rfl (ef_list (fun a _ => enum_standardDefinition v a)) <|
    enumF_field (some (.since SpecVersion1_7 (.list (.place .patentOrFamily)))) rfl rfl (ef_since (ef_list (fun a _ => enum_patentChoice v a))) <|
    enumF_nil)) ?_
  simp [Definitions.Listed, Definitions.toP]

theorem enum_dependency (v : Int) (x : Dependency) : EnumC v (.place .dependency) J.dependency x True :=
  enum_struct (
    enumF_plain (some .str) rfl rfl (ef_plain rfl) <|
    enumF_plain (some (.list .str)) rfl rfl (ef_plain rfl) <|
    enumF_plain (some (.since SpecVersion1_6 (.list .str))) rfl rfl (ef_plain rfl) <|
    enumF_nil)

theorem enum_resourceReferenceChoice (v : Int) (x : ResourceReferenceChoice) : EnumC v (.place .resourceReferenceChoice) J.resourceReferenceChoice x (ResourceReferenceChoice.Listed v x) := by
  refine EnumC.congr (enum_struct (
    enumF_plain (some .str) rfl rfl (ef_plain rfl) <|
    enumF_field (some (.place .externalReference)) rfl rfl (ef_opt (fun a _ => enum_externalReference v a)) <|
    enumF_nil)) ?_
  simp [ResourceReferenceChoice.Listed, ResourceReferenceChoice.toP]

theorem enum_environmentVariableChoice (v : Int) (x : EnvironmentVariableChoice) :
    EnumC v (.alt .str (.place .property)) J.environmentVariableChoice x True := by
  intro j hj
  have hs : ∀ j, (if x.value ≠ "" then some (Json.str x.value) else some (.obj [])) = some j →
      (HasListed v (.alt .str (.place .property)) j ↔ True) := by
    intro j hj
    split at hj <;> simp only [Option.some.injEq] at hj <;> subst hj <;> rw [listed_alt]
    · exact iff_true_intro ⟨.str _, listed_place_str⟩
    · simp [listed_place, HasListed.str]
  simp only [J.environmentVariableChoice] at hj
  split at hj
  · split at hj
    · have h := (enum_property v _ j hj).2 trivial
      simp [listed_alt, h, HasListed.str]
    · exact hs j hj
  · exact hs j hj


theorem enum_parameter (v : Int) (x : Parameter) : EnumC v (.place .parameter) J.parameter x True :=
  enum_struct (
    enumF_plain (some .str) rfl rfl (ef_plain rfl) <|
    enumF_plain (some .str) rfl rfl (ef_plain rfl) <|
    enumF_plain (some .str) rfl rfl (ef_plain rfl) <|
    enumF_nil)

theorem enum_taskInput (v : Int) (x : TaskInput) : EnumC v (.place .inputType) J.taskInput x (TaskInput.Listed v x) := by
  refine EnumC.congr (enum_struct (
    enumF_field (some (.place .resourceReferenceChoice)) rfl rfl (ef_opt (fun a _ => enum_resourceReferenceChoice v a)) <|
    enumF_plain (some (.list (.place .parameter))) rfl rfl (ef_list_true (fun a _ => enum_parameter v a)) <|
    enumF_plain (some (.list (.alt .str (.place .property)))) rfl rfl (ef_list_true (fun a _ => enum_environmentVariableChoice v a)) <|
    enumF_field (some (.place .attachment)) rfl rfl (ef_opt (fun a _ => enum_attachedText v a)) <|
    enumF_field (some (.place .resourceReferenceChoice)) rfl rfl (ef_opt (fun a _ => enum_resourceReferenceChoice v a)) <|
    enumF_field (some (.place .resourceReferenceChoice)) rfl rfl (ef_opt (fun a _ => enum_resourceReferenceChoice v a)) <|
    enumF_plain (some (.list (.place .property))) rfl rfl (ef_list_true (fun a _ => enum_property v a)) <|
    enumF_nil)) ?_
  simp [TaskInput.Listed, TaskInput.toP]

theorem enum_taskOutput (v : Int) (x : TaskOutput) : EnumC v (.place .outputType) J.taskOutput x (TaskOutput.Listed v x) := by
  refine EnumC.congr (enum_struct (
    enumF_field (some (.place .resourceReferenceChoice)) rfl rfl (ef_opt (fun a _ => enum_resourceReferenceChoice v a)) <|
    enumF_plain none rfl rfl (ef_none) <|
    enumF_plain (some (.list (.alt .str (.place .property)))) rfl rfl (ef_list_true (fun a _ => enum_environmentVariableChoice v a)) <|
    enumF_field (some (.place .attachment)) rfl rfl (ef_opt (fun a _ => enum_attachedText v a)) <|
    enumF_enum .str rfl rfl el_string_oe <|
    enumF_field (some (.place .resourceReferenceChoice)) rfl rfl (ef_opt (fun a _ => enum_resourceReferenceChoice v a)) <|
    enumF_field (some (.place .resourceReferenceChoice)) rfl rfl (ef_opt (fun a _ => enum_resourceReferenceChoice v a)) <|
    enumF_plain (some (.list (.place .property))) rfl rfl (ef_list_true (fun a _ => enum_property v a)) <|
    enumF_nil)) ?_
  simp [TaskOutput.Listed, TaskOutput.toP]

theorem enum_taskCommand (v : Int) (x : TaskCommand) : EnumC v (.place .command) J.taskCommand x True :=
  enum_struct (
    enumF_plain (some .str) rfl rfl (ef_plain rfl) <|
    enumF_plain (some (.list (.place .property))) rfl rfl (ef_list_true (fun a _ => enum_property v a)) <|
    enumF_nil)

theorem enum_taskStep (v : Int) (x : TaskStep) : EnumC v (.place .step) J.taskStep x True :=
  enum_struct (
    enumF_plain (some .str) rfl rfl (ef_plain rfl) <|
    enumF_plain (some .str) rfl rfl (ef_plain rfl) <|
    enumF_plain (some (.list (.place .command))) rfl rfl (ef_list_true (fun a _ => enum_taskCommand v a)) <|
    enumF_plain (some (.list (.place .property))) rfl rfl (ef_list_true (fun a _ => enum_property v a)) <|
    enumF_nil)

theorem enum_event (v : Int) (x : Event) : EnumC v (.place .event) J.event x (Event.Listed v x) := by
  refine EnumC.congr (enum_struct (
    enumF_plain (some .str) rfl rfl (ef_plain rfl) <|
    enumF_plain (some .str) rfl rfl (ef_plain rfl) <|
    enumF_plain (some .str) rfl rfl (ef_plain rfl) <|
    enumF_field (some (.place .attachment)) rfl rfl (ef_opt (fun a _ => enum_attachedText v a)) <|
    enumF_field (some (.place .resourceReferenceChoice)) rfl rfl (ef_opt (fun a _ => enum_resourceReferenceChoice v a)) <|
    enumF_field (some (.place .resourceReferenceChoice)) rfl rfl (ef_opt (fun a _ => enum_resourceReferenceChoice v a)) <|
    enumF_plain (some (.list (.place .property))) rfl rfl (ef_list_true (fun a _ => enum_property v a)) <|
    enumF_nil)) ?_
  simp [Event.Listed, Event.toP]

theorem enum_taskTriggerCondition (v : Int) (x : TaskTriggerCondition) : EnumC v (.place .condition) J.taskTriggerCondition x True :=
  enum_struct (
    enumF_plain (some .str) rfl rfl (ef_plain rfl) <|
    enumF_plain (some .str) rfl rfl (ef_plain rfl) <|
    enumF_plain (some (.list (.place .property))) rfl rfl (ef_list_true (fun a _ => enum_property v a)) <|
    enumF_nil)

theorem enum_taskTrigger (v : Int) (x : TaskTrigger) : EnumC v (.place .trigger) J.taskTrigger x (TaskTrigger.Listed v x) := by
  refine EnumC.congr (enum_struct (
    enumF_plain (some .str) rfl rfl (ef_plain rfl) <|
    enumF_plain (some .str) rfl rfl (ef_plain rfl) <|
    enumF_plain (some .str) rfl rfl (ef_plain rfl) <|
    enumF_plain (some .str) rfl rfl (ef_plain rfl) <|
    enumF_field (some (.list (.place .resourceReferenceChoice))) rfl rfl (ef_list (fun a _ => enum_resourceReferenceChoice v a)) <|
    enumF_enum .str rfl rfl el_string_oe <|
    enumF_field (some (.place .event)) rfl rfl (ef_opt (fun a _ => enum_event v a)) <|
    enumF_plain (some (.list (.place .condition))) rfl rfl (ef_list_true (fun a _ => enum_taskTriggerCondition v a)) <|
    enumF_plain (some .str) rfl rfl (ef_plain rfl) <|
    enumF_field (some (.list (.place .inputType))) rfl rfl (ef_list (fun a _ => enum_taskInput v a)) <|
    enumF_field (some (.list (.place .outputType))) rfl rfl (ef_list (fun a _ => enum_taskOutput v a)) <|
    enumF_plain (some (.list (.place .property))) rfl rfl (ef_list_true (fun a _ => enum_property v a)) <|
    enumF_nil)) ?_
  simp [TaskTrigger.Listed, TaskTrigger.toP]

theorem enum_volume (v : Int) (x : Volume) : EnumC v (.place .volume) J.volume x (Volume.Listed v x) := by
  refine EnumC.congr (enum_struct (
    enumF_plain (some .str) rfl rfl (ef_plain rfl) <|
    enumF_plain (some .str) rfl rfl (ef_plain rfl) <|
    enumF_enum .str rfl rfl el_string_oe <|
    enumF_plain (some .str) rfl rfl (ef_plain rfl) <|
    enumF_plain (some .str) rfl rfl (ef_plain rfl) <|
    enumF_plain (some .bool) rfl rfl (ef_plain rfl) <|
    enumF_plain (some .bool) rfl rfl (ef_plain rfl) <|
    enumF_plain (some (.list (.place .property))) rfl rfl (ef_list_true (fun a _ => enum_property v a)) <|
    enumF_nil)) ?_
  simp [Volume.Listed, Volume.toP]

theorem enum_taskWorkspace (v : Int) (x : TaskWorkspace) : EnumC v (.place .workspace) J.taskWorkspace x (TaskWorkspace.Listed v x) := by
  refine EnumC.congr (enum_struct (
    enumF_plain (some .str) rfl rfl (ef_plain rfl) <|
    enumF_plain (some .str) rfl rfl (ef_plain rfl) <|
    enumF_plain (some .str) rfl rfl (ef_plain rfl) <|
    enumF_plain (some (.list .str)) rfl rfl (ef_plain rfl) <|
    enumF_plain (some .str) rfl rfl (ef_plain rfl) <|
    enumF_field (some (.list (.place .resourceReferenceChoice))) rfl rfl (ef_list (fun a _ => enum_resourceReferenceChoice v a)) <|
    enumF_enum .str rfl rfl el_string_oe <|
    enumF_plain (some .str) rfl rfl (ef_plain rfl) <|
    enumF_plain (some .str) rfl rfl (ef_plain rfl) <|
    enumF_plain (some .str) rfl rfl (ef_plain rfl) <|
    enumF_field (some (.place .volume)) rfl rfl (ef_opt (fun a _ => enum_volume v a)) <|
    enumF_plain (some (.list (.place .property))) rfl rfl (ef_list_true (fun a _ => enum_property v a)) <|
    enumF_nil)) ?_
  simp [TaskWorkspace.Listed, TaskWorkspace.toP]

theorem enum_task (v : Int) (x : Task) : EnumC v (.place .task) J.task x (Task.Listed v x) := by
  refine EnumC.congr (enum_struct (
    enumF_plain (some .str) rfl rfl (ef_plain rfl) <|
    enumF_plain (some .str) rfl rfl (ef_plain rfl) <|
    enumF_plain (some .str) rfl rfl (ef_plain rfl) <|
    enumF_plain (some .str) rfl rfl (ef_plain rfl) <|
    enumF_plain (some (.list (.place .property))) rfl rfl (ef_list_true (fun a _ => enum_property v a)) <|
    enumF_field (some (.list (.place .resourceReferenceChoice))) rfl rfl (ef_list (fun a _ => enum_resourceReferenceChoice v a)) <|
    enumF_enum (.list .str) rfl rfl el_list <|
    enumF_field (some (.place .trigger)) rfl rfl (ef_opt (fun a _ => enum_taskTrigger v a)) <|
    enumF_plain (some (.list (.place .step))) rfl rfl (ef_list_true (fun a _ => enum_taskStep v a)) <|
    enumF_field (some (.list (.place .inputType))) rfl rfl (ef_list (fun a _ => enum_taskInput v a)) <|
    enumF_field (some (.list (.place .outputType))) rfl rfl (ef_list (fun a _ => enum_taskOutput v a)) <|
    enumF_plain (some .str) rfl rfl (ef_plain rfl) <|
    enumF_plain (some .str) rfl rfl (ef_plain rfl) <|
    enumF_field (some (.list (.place .workspace))) rfl rfl (ef_list (fun a _ => enum_taskWorkspace v a)) <|
    enumF_plain (some (.list (.place .dependency))) rfl rfl (ef_list_true (fun a _ => enum_dependency v a)) <|
    enumF_nil)) ?_
  simp [Task.Listed, Task.toP]

theorem enum_workflow (v : Int) (x : Workflow) : EnumC v (.place .workflow) J.workflow x (Workflow.Listed v x) := by
  refine EnumC.congr (enum_struct (
    enumF_plain (some .str) rfl rfl (ef_plain rfl) <|
    enumF_plain (some .str) rfl rfl (ef_plain rfl) <|
    enumF_plain (some .str) rfl rfl (ef_plain rfl) <|
    enumF_plain (some .str) rfl rfl (ef_plain rfl) <|
    enumF_field (some (.list (.place .resourceReferenceChoice))) rfl rfl (ef_list (fun a _ => enum_resourceReferenceChoice v a)) <|
    enumF_field (some (.list (.place .task))) rfl rfl (ef_list (fun a _ => enum_task v a)) <|
    enumF_plain (some (.list (.place .dependency))) rfl rfl (ef_list_true (fun a _ => enum_dependency v a)) <|
    enumF_enum (.list .str) rfl rfl el_list <|
    enumF_field (some (.place .trigger)) rfl rfl (ef_opt (fun a _ => enum_taskTrigger v a)) <|
    enumF_plain (some (.list (.place .step))) rfl rfl (ef_list_true (fun a _ => enum_taskStep v a)) <|
    enumF_field (some (.list (.place .inputType))) rfl rfl (ef_list (fun a _ => enum_taskInput v a)) <|
    enumF_field (some (.list (.place .outputType))) rfl rfl (ef_list (fun a _ => enum_taskOutput v a)) <|
    enumF_plain (some .str) rfl rfl (ef_plain rfl) <|
    enumF_plain (some .str) rfl rfl (ef_plain rfl) <|
    enumF_field (some (.list (.place .workspace))) rfl rfl (ef_list (fun a _ => enum_taskWorkspace v a)) <|
    enumF_plain (some (.list (.place .dependency))) rfl rfl (ef_list_true (fun a _ => enum_dependency v a)) <|
    enumF_plain (some (.list (.place .property))) rfl rfl (ef_list_true (fun a _ => enum_property v a)) <|
    enumF_nil)) ?_
  simp [Workflow.Listed, Workflow.toP]

theorem enum_formula (v : Int) (x : Formula) : EnumC v (.place .formula) J.formula x (Formula.Listed v x) := by
  refine EnumC.congr (enum_struct (
    enumF_plain (some .str) rfl rfl (ef_plain rfl) <|
    enumF_field (some (.list (.place .component))) rfl rfl (ef_list (fun a _ => enum_component v a)) <|
    enumF_field (some (.list (.place .service))) rfl rfl (ef_list (fun a _ => enum_service v a)) <|
    enumF_field (some (.list (.place .workflow))) rfl rfl (ef_list (fun a _ => enum_workflow v a)) <|
    enumF_plain (some (.list (.place .property))) rfl rfl (ef_list_true (fun a _ => enum_property v a)) <|
    enumF_nil)) ?_
  simp [Formula.Listed, Formula.toP]

theorem enum_lifecycle (v : Int) (x : Lifecycle) : EnumC v (.place .metadataLifecycles) J.lifecycle x (Lifecycle.Listed v x) := by
  refine EnumC.congr (enum_struct (
    enumF_plain (some .str) rfl rfl (ef_plain rfl) <|
    enumF_enum .str rfl rfl el_string_oe <|
    enumF_plain (some .str) rfl rfl (ef_plain rfl) <|
    enumF_nil)) ?_
  simp [Lifecycle.Listed, Lifecycle.toP]

theorem enum_tool (v : Int) (x : Tool) : EnumC v (.place .tool) J.tool x (Tool.Listed v x) := by
  refine EnumC.congr (enum_struct (
    enumF_plain (some .str) rfl rfl (ef_plain rfl) <|
    enumF_plain (some .str) rfl rfl (ef_plain rfl) <|
    enumF_plain (some .str) rfl rfl (ef_plain rfl) <|
    enumF_field (some (.list (.place .hash))) rfl rfl (ef_list (fun a _ => enum_hash v a)) <|
    enumF_field (some (.since SpecVersion1_4 (.list (.place .externalReference)))) rfl rfl (ef_since (ef_list (fun a _ => enum_externalReference v a))) <|
    enumF_nil)) ?_
  simp [Tool.Listed, Tool.toP]

theorem enum_toolsChoice (v : Int) (x : ToolsChoice) :
    EnumC v (.alt (.list (.place .tool)) (.since SpecVersion1_5 (.place .tools))) J.toolsChoice x (x.Listed v) := by
  intro j hj
  obtain ⟨t, c, s⟩ := x
  simp only [J.toolsChoice] at hj
  simp only [ToolsChoice.Listed]
  rw [listed_alt, listed_since]
  split at hj
  · cases hj
  · rename_i h1
    split at hj
    · rename_i ht
      have hcs : c = .nil ∧ s = .nil := by
        cases t <;> cases c <;> cases s <;> simp_all [PSlice.isNil]
      have h := enum_list (fun a _ => enum_tool v a) j hj
      have hn : HasListed v (.place .tools) j := by
        cases t with
        | list xs =>
          simp only [JCodec.pslice, Option.map_eq_some_iff] at hj
          obtain ⟨js, _, rfl⟩ := hj; exact listed_place_arr
        | _ =>
          simp only [JCodec.pslice, Option.some.injEq] at hj
          subst hj; exact listed_null _
      rw [h]
      simp [hn, hcs.1, hcs.2, PSlice.elems]
    · split at hj
      · obtain ⟨ms, rfl⟩ := struct_is_obj hj
        have h : EnumC v (.place .tools) J.toolsChoiceJSON (c, s) (
            (∀ y ∈ c.elems, Component.Listed v y) ∧ (∀ y ∈ s.elems, Service.Listed v y) ∧ True) :=
          enum_struct (enumF_field (some (.list (.place .component))) rfl rfl (ef_list (fun a _ => enum_component v a)) <|
            enumF_field (some (.list (.place .service))) rfl rfl (ef_list (fun a _ => enum_service v a)) enumF_nil)
        have ht : t = .nil := by cases t <;> simp_all [PSlice.isNil]
        rw [h _ hj]
        simp [listed_list_obj, ht, PSlice.elems]
      · cases hj


theorem enum_distributionConstraints (v : Int) (x : DistributionConstraints) : EnumC v (.place .metadataDistributionConstraints) J.distributionConstraints x (DistributionConstraints.Listed v x) := by
  refine EnumC.congr (enum_struct (
    enumF_enum .str rfl rfl el_string_oe <|
    enumF_nil)) ?_
  simp [DistributionConstraints.Listed, DistributionConstraints.toP]

theorem enum_metadata (v : Int) (x : Metadata) : EnumC v (.place .metadata) J.metadata x (Metadata.Listed v x) := by
  refine EnumC.congr (enum_struct (
    enumF_plain (some .str) rfl rfl (ef_plain rfl) <|
    enumF_field (some (.since SpecVersion1_5 (.list (.place .metadataLifecycles)))) rfl rfl (ef_since (ef_list (fun a _ => enum_lifecycle v a))) <|
    enumF_field (some (.alt (.list (.place .tool)) (.since SpecVersion1_5 (.place .tools)))) rfl rfl (ef_opt (fun a _ => enum_toolsChoice v a)) <|
    enumF_plain (some (.list (.place .organizationalContact))) rfl rfl (ef_list_true (fun a _ => enum_organizationalContact v a)) <|
    enumF_field (some (.place .component)) rfl rfl (ef_opt (fun a _ => enum_component v a)) <|
    enumF_plain (some (.place .organizationalEntity)) rfl rfl (ef_opt_true (fun a _ => enum_organizationalEntity v a)) <|
    enumF_plain (some (.since SpecVersion1_6 (.place .organizationalEntity))) rfl rfl (ef_since (ef_opt_true (fun a _ => enum_organizationalEntity v a))) <|
    enumF_plain (some (.place .organizationalEntity)) rfl rfl (ef_opt_true (fun a _ => enum_organizationalEntity v a)) <|
    enumF_field (some (.since SpecVersion1_3 (.list (.place .licenseChoice)))) rfl rfl (ef_since (ef_list (fun a _ => enum_licenseChoice v a))) <|
    enumF_plain (some (.since SpecVersion1_3 (.list (.place .property)))) rfl rfl (ef_since (ef_list_true (fun a _ => enum_property v a))) <|
    enumF_field (some (.since SpecVersion1_7 (.place .metadataDistributionConstraints))) rfl rfl (ef_since (ef_opt (fun a _ => enum_distributionConstraints v a))) <|
    enumF_nil)) ?_
  simp [Metadata.Listed, Metadata.toP]

theorem enum_credits (v : Int) (x : Credits) : EnumC v (.place .vulnerabilityCredits) J.credits x True :=
  enum_struct (
    enumF_plain (some (.list (.place .organizationalEntity))) rfl rfl (ef_list_true (fun a _ => enum_organizationalEntity v a)) <|
    enumF_plain (some (.list (.place .organizationalContact))) rfl rfl (ef_list_true (fun a _ => enum_organizationalContact v a)) <|
    enumF_nil)

theorem enum_proofOfConcept (v : Int) (x : ProofOfConcept) : EnumC v (.place .vulnerabilityProofOfConcept) J.proofOfConcept x (ProofOfConcept.Listed v x) := by
  refine EnumC.congr (enum_struct (
    enumF_plain (some .str) rfl rfl (ef_plain rfl) <|
    enumF_plain (some .str) rfl rfl (ef_plain rfl) <|
    enumF_field (some (.list (.place .attachment))) rfl rfl (ef_list (fun a _ => enum_attachedText v a)) <|
    enumF_nil)) ?_
  simp [ProofOfConcept.Listed, ProofOfConcept.toP]

theorem enum_vulnerabilityAnalysis (v : Int) (x : VulnerabilityAnalysis) : EnumC v (.place .vulnerabilityAnalysis) J.vulnerabilityAnalysis x (VulnerabilityAnalysis.Listed v x) := by
  refine EnumC.congr (enum_struct (
    enumF_enum .str rfl rfl el_string_oe <|
    enumF_enum .str rfl rfl el_string_oe <|
    enumF_enum (.list .str) rfl rfl el_list <|
    enumF_plain (some .str) rfl rfl (ef_plain rfl) <|
    enumF_plain (some (.since SpecVersion1_5 .str)) rfl rfl (ef_plain rfl) <|
    enumF_plain (some (.since SpecVersion1_5 .str)) rfl rfl (ef_plain rfl) <|
    enumF_nil)) ?_
  simp [VulnerabilityAnalysis.Listed, VulnerabilityAnalysis.toP]

theorem enum_vulnerabilityRating (v : Int) (x : VulnerabilityRating) : EnumC v (.place .rating) J.vulnerabilityRating x (VulnerabilityRating.Listed v x) := by
  refine EnumC.congr (enum_struct (
    enumF_plain (some (.place .vulnerabilitySource)) rfl rfl (ef_opt_true (fun a _ => enum_source v a)) <|
    enumF_plain (some .num) rfl rfl (ef_plain rfl) <|
    enumF_enum .str rfl rfl el_string_oe <|
    enumF_enum .str rfl rfl el_string_oe <|
    enumF_plain (some .str) rfl rfl (ef_plain rfl) <|
    enumF_plain (some .str) rfl rfl (ef_plain rfl) <|
    enumF_nil)) ?_
  simp [VulnerabilityRating.Listed, VulnerabilityRating.toP]

theorem enum_vulnerabilityReference (v : Int) (x : VulnerabilityReference) : EnumC v (.place .vulnerabilityReferences) J.vulnerabilityReference x True :=
  enum_struct (
    enumF_plain (some .str) rfl rfl (ef_plain rfl) <|
    enumF_plain (some (.place .vulnerabilitySource)) rfl rfl (ef_opt_true (fun a _ => enum_source v a)) <|
    enumF_nil)

theorem enum_vulnerability (v : Int) (x : Vulnerability) : EnumC v (.place .vulnerability) J.vulnerability x (Vulnerability.Listed v x) := by
  refine EnumC.congr (enum_struct (
    enumF_plain (some .str) rfl rfl (ef_plain rfl) <|
    enumF_plain (some .str) rfl rfl (ef_plain rfl) <|
    enumF_plain (some (.place .vulnerabilitySource)) rfl rfl (ef_opt_true (fun a _ => enum_source v a)) <|
    enumF_plain (some (.list (.place .vulnerabilityReferences))) rfl rfl (ef_list_true (fun a _ => enum_vulnerabilityReference v a)) <|
    enumF_field (some (.list (.place .rating))) rfl rfl (ef_list (fun a _ => enum_vulnerabilityRating v a)) <|
    enumF_plain (some (.list .int)) rfl rfl (ef_plain rfl) <|
    enumF_plain (some .str) rfl rfl (ef_plain rfl) <|
    enumF_plain (some .str) rfl rfl (ef_plain rfl) <|
    enumF_plain (some .str) rfl rfl (ef_plain rfl) <|
    enumF_plain (some (.since SpecVersion1_5 .str)) rfl rfl (ef_plain rfl) <|
    enumF_field (some (.since SpecVersion1_5 (.place .vulnerabilityProofOfConcept))) rfl rfl (ef_since (ef_opt (fun a _ => enum_proofOfConcept v a))) <|
    enumF_plain (some (.list (.place .advisory))) rfl rfl (ef_list_true (fun a _ => enum_advisory v a)) <|
    enumF_plain (some .str) rfl rfl (ef_plain rfl) <|
    enumF_plain (some .str) rfl rfl (ef_plain rfl) <|
    enumF_plain (some .str) rfl rfl (ef_plain rfl) <|
    enumF_plain (some (.since SpecVersion1_5 .str)) rfl rfl (ef_plain rfl) <|
    enumF_plain (some (.place .vulnerabilityCredits)) rfl rfl (ef_opt_true (fun a _ => enum_credits v a)) <|
    enumF_field (some (.alt (.list (.place .tool)) (.since SpecVersion1_5 (.place .tools)))) rfl rfl (ef_opt (fun a _ => enum_toolsChoice v a)) <|
    enumF_field (some (.place .vulnerabilityAnalysis)) rfl rfl (ef_opt (fun a _ => enum_vulnerabilityAnalysis v a)) <|
    enumF_field (some (.list (.place .vulnerabilityAffects))) rfl rfl (ef_list (fun a _ => enum_affects v a)) <|
    enumF_plain (some (.list (.place .property))) rfl rfl (ef_list_true (fun a _ => enum_property v a)) <|
    enumF_nil)) ?_
  simp [Vulnerability.Listed, Vulnerability.toP]

theorem enum_citation (v : Int) (x : Citation) : EnumC v (.place .citation) J.citation x (Citation.Listed v x) := by
  refine EnumC.congr (enum_struct (
    enumF_plain (some .str) rfl rfl (ef_plain rfl) <|
    enumF_plain (some (.list .str)) rfl rfl (ef_plain rfl) <|
    enumF_plain (some (.list .str)) rfl rfl (ef_plain rfl) <|
    enumF_plain (some .str) rfl rfl (ef_plain rfl) <|
    enumF_plain (some .str) rfl rfl (ef_plain rfl) <|
    enumF_plain (some .str) rfl rfl (ef_plain rfl) <|
    enumF_plain (some .str) rfl rfl (ef_plain rfl) <|
    enumF_field (some (.place .signature)) rfl rfl (ef_opt (fun a _ => enum_jsfSignature v a)) <|
    enumF_nil)) ?_
  simp [Citation.Listed, Citation.toP]

theorem enum_bom (v : Int) (x : BOM) : EnumC v (.place .bom) J.bom x (BOM.Listed v x) := by
  refine EnumC.congr (enum_struct (
    enumF_skip <|
    enumF_skip <|
    enumF_plain (some .str) rfl rfl (ef_plain rfl) <|
    enumF_enum .str rfl rfl el_string <|
    enumF_plain (some .str) rfl rfl (ef_plain rfl) <|
    enumF_plain (some .str) rfl rfl (ef_plain rfl) <|
    enumF_plain (some .int) rfl rfl (ef_plain rfl) <|
    enumF_field (some (.place .metadata)) rfl rfl (ef_opt (fun a _ => enum_metadata v a)) <|
    enumF_field (some (.list (.place .component))) rfl rfl (ef_list (fun a _ => enum_component v a)) <|
    enumF_field (some (.list (.place .service))) rfl rfl (ef_list (fun a _ => enum_service v a)) <|
    enumF_field (some (.list (.place .externalReference))) rfl rfl (ef_list (fun a _ => enum_externalReference v a)) <|
    enumF_plain (some (.list (.place .dependency))) rfl rfl (ef_list_true (fun a _ => enum_dependency v a)) <|
    enumF_field (some (.since SpecVersion1_3 (.list (.place .compositions)))) rfl rfl (ef_since (ef_list (fun a _ => enum_composition v a))) <|
    enumF_plain (some (.since SpecVersion1_5 (.list (.place .property)))) rfl rfl (ef_since (ef_list_true (fun a _ => enum_property v a))) <|
    enumF_field (some (.since SpecVersion1_4 (.list (.place .vulnerability)))) rfl rfl (ef_since (ef_list (fun a _ => enum_vulnerability v a))) <|
    enumF_field (some (.since SpecVersion1_5 (.list (.place .annotations)))) rfl rfl (ef_since (ef_list (fun a _ => enum_annotation v a))) <|
    enumF_field (some (.since SpecVersion1_5 (.list (.place .formula)))) rfl rfl (ef_since (ef_list (fun a _ => enum_formula v a))) <|
    enumF_field (some (.since SpecVersion1_6 (.place .bomDeclarations))) rfl rfl (ef_since (ef_opt (fun a _ => enum_declarations v a))) <|
    enumF_field (some (.since SpecVersion1_6 (.place .bomDefinitions))) rfl rfl (ef_since (ef_opt (fun a _ => enum_definitions v a))) <|
    enumF_field (some (.since SpecVersion1_7 (.list (.place .citation)))) rfl rfl (ef_since (ef_list (fun a _ => enum_citation v a))) <|
    enumF_field (some (.since SpecVersion1_4 (.place .signature))) rfl rfl (ef_since (ef_opt (fun a _ => enum_jsfSignature v a))) <|
    enumF_nil)) ?_
  simp [BOM.Listed, BOM.toP]

end Verif
