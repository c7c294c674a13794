import Verif.Spec.JsonRequired
import Verif.Json.StructLaws

/-!
# Which values are written with all required members

GENERATED by `tools/gen_jrequired.py`; do not edit by hand.  `CompC v s c x Q`: when the codec `c` writes `x`, what
it writes has the members required at version `v`, where `s` is declared, exactly if `Q`.  For every type, at the place
the schema has for it, `Q` is `T.Complete v`.
-/

namespace Verif

set_option linter.unusedSectionVars false
set_option linter.unusedSimpArgs false

theorem required_list {v : Int} {s : Sch} {js : List Json} :
    HasRequired v (.list s) (.arr js) ↔ ∀ j ∈ js, HasRequired v s j := by
  refine ⟨fun h => ?_, .list⟩
  cases h with
  | list h => exact h
  | noList h => exact absurd rfl (h js)
theorem required_alt {v : Int} {s t : Sch} {j : Json} :
    HasRequired v (.alt s t) j ↔ HasRequired v s j ∧ HasRequired v t j :=
  ⟨fun h => by cases h; constructor <;> assumption, fun h => .alt h.1 h.2⟩
theorem required_since {v n : Int} {s : Sch} {j : Json} : HasRequired v (.since n s) j ↔ HasRequired v s j :=
  ⟨fun h => by cases h; assumption, .since⟩
theorem required_place {v : Int} {p : Place} {ms : List (String × Json)} :
    HasRequired v (.place p) (.obj ms) ↔ p.Needs v (fun k => ∃ m ∈ ms, m.1 = k) ∧
      ∀ m ∈ ms, ∀ s, p.members.lookup m.1 = some s → HasRequired v s m.2 := by
  refine ⟨fun h => ?_, fun h => .place h.1 h.2⟩
  cases h with
  | place h1 h2 => exact ⟨h1, h2⟩
  | noPlace h => exact absurd rfl (h ms)
theorem required_null {v : Int} : ∀ s : Sch, HasRequired v s .null
  | .str => .str _
  | .num => .num _
  | .int => .int _
  | .bool => .bool _
  | .list _ => .noList (by simp)
  | .place _ => .noPlace (by simp)
  | .alt s t => .alt (required_null s) (required_null t)
  | .since _ s => .since (required_null s)
theorem required_list_obj {v : Int} {s : Sch} {ms : List (String × Json)} : HasRequired v (.list s) (.obj ms) :=
  .noList (by simp)
theorem required_place_arr {v : Int} {p : Place} {js : List Json} : HasRequired v (.place p) (.arr js) :=
  .noPlace (by simp)
theorem required_place_str {v : Int} {p : Place} {t : String} : HasRequired v (.place p) (.str t) :=
  .noPlace (by simp)

/-- No objects are declared. -/
def Sch.plain : Sch → Bool
  | .str | .num | .int | .bool => true
  | .list s => s.plain
  | .place _ => false
  | .alt s t => s.plain && t.plain
  | .since _ s => s.plain

theorem required_plain {v : Int} : ∀ {s : Sch}, s.plain = true → ∀ j, HasRequired v s j
  | .str, _, j => .str j
  | .num, _, j => .num j
  | .int, _, j => .int j
  | .bool, _, j => .bool j
  | .list s, h, j => by
    have ih := required_plain (v := v) (s := s) h
    cases j with
    | arr js => exact .list fun j _ => ih j
    | _ => exact .noList (by simp)
  | .place _, h, _ => by cases h
  | .alt s t, h, j => by
    simp only [Sch.plain, Bool.and_eq_true] at h
    exact .alt (required_plain h.1 j) (required_plain h.2 j)
  | .since _ s, h, j => .since (required_plain (s := s) h j)

/-- The member is written. -/
def JFields.Writes : {β : Type} → JFields β → β → String → Prop
  | _, .nil, _, _ => False
  | _, .skip _ F, b, k => F.Writes b.2 k
  | _, .field n oe c F, b, k => n = k ∧ (oe = true → c.empty b.1 = false) ∨ F.Writes b.2 k

theorem has_iff : ∀ {β : Type} (F : JFields β) (b : β) {ms : List (String × Json)}, F.enc b = some ms →
    ∀ k, (∃ m ∈ ms, m.1 = k) ↔ F.Writes b k
  | _, .nil, b, ms, h, k => by
    simp only [JFields.enc, Option.some.injEq] at h
    subst h
    simp [JFields.Writes]
  | _, .skip _ F, b, ms, h, k => has_iff F b.2 h k
  | _, .field n oe c F, b, ms, h, k => by
    simp only [JFields.enc] at h
    by_cases he : (oe && c.empty b.1) = true
    · rw [if_pos he] at h
      rw [Bool.and_eq_true] at he
      rw [has_iff F b.2 h k]
      simp [JFields.Writes, he.1, he.2]
    · rw [if_neg he] at h
      have he' : oe = true → c.empty b.1 = false := by
        intro h1
        simpa [h1] using he
      cases hc : c.enc b.1 with
      | none => simp [hc] at h
      | some j =>
        simp only [hc, Option.map_eq_some_iff] at h
        obtain ⟨ms', hm, rfl⟩ := h
        have ih := has_iff F b.2 hm k
        simp only [JFields.Writes, List.mem_cons, exists_eq_or_imp, ih, eq_true he', and_true]

/-- When `c` writes `a`, what it writes has the required members exactly if `Q`. -/
def CompC {α : Type} (v : Int) (s : Sch) (c : JCodec α) (a : α) (Q : Prop) : Prop :=
  ∀ j, c.enc a = some j → (HasRequired v s j ↔ Q)

/-- When the fields are written, the value of every member has what it needs exactly if `Q`. -/
def CompF {β : Type} (v : Int) (p : Place) (F : JFields β) (b : β) (Q : Prop) : Prop :=
  ∀ ms, F.enc b = some ms → ((∀ m ∈ ms, ∀ s, p.members.lookup m.1 = some s → HasRequired v s m.2) ↔ Q)

/-- One field: it is dropped and `Q` holds, or what is written has what it needs exactly if `Q`. -/
def FieldComp {α : Type} (v : Int) (s : Option Sch) (oe : Bool) (c : JCodec α) (a : α) (Q : Prop) : Prop :=
  if oe && c.empty a then Q else ∀ j, c.enc a = some j → ((∀ t, s = some t → HasRequired v t j) ↔ Q)

theorem CompC.congr {α : Type} {v : Int} {s : Sch} {c : JCodec α} {a : α} {P Q : Prop} (h : CompC v s c a P)
    (e : P ↔ Q) : CompC v s c a Q := fun j hj => (h j hj).trans e

theorem compF_nil {v : Int} {p : Place} {b : Unit} : CompF v p .nil b True := by
  intro ms h
  simp only [JFields.enc, Option.some.injEq] at h
  subst h
  simp

theorem compF_skip {v : Int} {p : Place} {α β : Type} {z : α} {F : JFields β} {b : α × β} {Q : Prop}
    (h : CompF v p F b.2 Q) : CompF v p (.skip z F) b Q := h

theorem compF_field {v : Int} {p : Place} {α β : Type} {n : String} {oe : Bool} {c : JCodec α} {F : JFields β}
    {b : α × β} {P Q : Prop} (s : Option Sch) (hs : p.members.lookup n = s) (h1 : FieldComp v s oe c b.1 P)
    (h2 : CompF v p F b.2 Q) : CompF v p (.field n oe c F) b (P ∧ Q) := by
  intro ms h
  simp only [JFields.enc] at h
  simp only [FieldComp] at h1
  by_cases he : (oe && c.empty b.1) = true
  · rw [if_pos he] at h h1
    rw [h2 ms h]
    exact ⟨fun hq => ⟨h1, hq⟩, And.right⟩
  · rw [if_neg he] at h h1
    cases hc : c.enc b.1 with
    | none => simp [hc] at h
    | some j =>
      simp only [hc, Option.map_eq_some_iff] at h
      obtain ⟨ms', hm, rfl⟩ := h
      rw [← h1 j hc, ← h2 ms' hm]
      simp only [List.mem_cons, forall_eq_or_imp, hs]

theorem compF_plain {v : Int} {p : Place} {α β : Type} {n : String} {oe : Bool} {c : JCodec α} {F : JFields β}
    {b : α × β} {Q : Prop} (s : Option Sch) (hs : p.members.lookup n = s) (h1 : FieldComp v s oe c b.1 True)
    (h2 : CompF v p F b.2 Q) : CompF v p (.field n oe c F) b Q := by
  have := compF_field s hs h1 h2
  rwa [true_and] at this

theorem comp_struct {v : Int} {p : Place} {σ β : Type} {F : JFields β} {toP : σ → β} {ofP : β → σ} {x : σ}
    {Q : Prop} (h : CompF v p F (toP x) Q) :
    CompC v (.place p) (JCodec.struct F toP ofP) x (p.Needs v (F.Writes (toP x)) ∧ Q) := by
  intro j hj
  simp only [JCodec.struct, Option.map_eq_some_iff] at hj
  obtain ⟨ms, hm, rfl⟩ := hj
  have e : (fun k => ∃ m ∈ ms, m.1 = k) = F.Writes (toP x) := funext fun k => propext (has_iff F (toP x) hm k)
  rw [required_place, e, h ms hm]

theorem struct_is_obj {σ β : Type} {F : JFields β} {toP : σ → β} {ofP : β → σ} {x : σ} {j : Json}
    (h : (JCodec.struct F toP ofP).enc x = some j) : ∃ ms, j = .obj ms := by
  simp only [JCodec.struct, Option.map_eq_some_iff] at h
  obtain ⟨ms, _, rfl⟩ := h
  exact ⟨ms, rfl⟩

/-! ### Fields -/

theorem cf_none {v : Int} {α : Type} {oe : Bool} {c : JCodec α} {a : α} : FieldComp v none oe c a True := by
  simp [FieldComp]

theorem cf_plain {v : Int} {α : Type} {oe : Bool} {s : Sch} {c : JCodec α} {a : α} (h : s.plain = true) :
    FieldComp v (some s) oe c a True := by
  simp only [FieldComp]
  split
  · trivial
  · intro j _
    simp [required_plain h j]

theorem cf_since {v n : Int} {α : Type} {oe : Bool} {s : Sch} {c : JCodec α} {a : α} {P : Prop}
    (h : FieldComp v (some s) oe c a P) : FieldComp v (some (.since n s)) oe c a P := by
  simp only [FieldComp] at h ⊢
  split
  · rwa [if_pos (by assumption)] at h
  · rw [if_neg (by assumption)] at h
    intro j hj
    rw [← h j hj]
    simp [required_since]

theorem cf_val {v : Int} {σ β : Type} {oe : Bool} {s : Sch} {F : JFields β} {toP : σ → β} {ofP : β → σ} {x : σ}
    {P : Prop} (h : CompC v s (JCodec.struct F toP ofP) x P) :
    FieldComp v (some s) oe (JCodec.struct F toP ofP) x P := by
  simp only [FieldComp, JCodec.struct, Bool.and_false, Bool.false_eq_true, if_false]
  intro j hj
  simpa using h j hj

theorem cf_opt {v : Int} {α : Type} {oe : Bool} {s : Sch} {c : JCodec α} {o : Option α} {P : α → Prop}
    (h : ∀ a ∈ o, CompC v s c a (P a)) : FieldComp v (some s) oe (JCodec.option c) o (∀ a ∈ o, P a) := by
  cases o with
  | none =>
    simp only [FieldComp]
    split
    · simp
    · intro j hj
      simp only [JCodec.option, Option.some.injEq] at hj
      subst hj
      simp [required_null]
  | some a =>
    simp only [FieldComp, JCodec.option, Option.isNone_some, Bool.and_false, Bool.false_eq_true, if_false]
    intro j hj
    simpa using h a rfl j hj

theorem cf_opt_true {v : Int} {α : Type} {oe : Bool} {s : Sch} {c : JCodec α} {o : Option α}
    (h : ∀ a ∈ o, CompC v s c a True) : FieldComp v (some s) oe (JCodec.option c) o True := by
  have := cf_opt (oe := oe) (P := fun _ => True) h
  simpa using this

theorem compC_encList {v : Int} {α : Type} {s : Sch} {c : JCodec α} {P : α → Prop} : ∀ {xs : List α} {js : List Json},
    (∀ a ∈ xs, CompC v s c a (P a)) → JCodec.encList c xs = some js →
    ((∀ j ∈ js, HasRequired v s j) ↔ ∀ a ∈ xs, P a)
  | [], js, _, h => by
    simp only [JCodec.encList, Option.some.injEq] at h
    subst h
    simp
  | x :: xs, js, hx, h => by
    simp only [JCodec.encList] at h
    cases hc : c.enc x with
    | none => simp [hc] at h
    | some j =>
      simp only [hc, Option.map_eq_some_iff] at h
      obtain ⟨js', h', rfl⟩ := h
      have ih := compC_encList (fun a ha => hx a (List.mem_cons_of_mem _ ha)) h'
      simp only [List.mem_cons, forall_eq_or_imp, ih, hx x (by simp) j hc]

theorem comp_list {v : Int} {α : Type} {s : Sch} {c : JCodec α} {p : PSlice α} {P : α → Prop}
    (h : ∀ a ∈ p.elems, CompC v s c a (P a)) : CompC v (.list s) (JCodec.pslice c) p (∀ a ∈ p.elems, P a) := by
  intro j hj
  cases p with
  | nil =>
    simp only [JCodec.pslice, Option.some.injEq] at hj
    subst hj
    simp [required_null, PSlice.elems]
  | nilSlice =>
    simp only [JCodec.pslice, Option.some.injEq] at hj
    subst hj
    simp [required_null, PSlice.elems]
  | list xs =>
    simp only [JCodec.pslice, Option.map_eq_some_iff] at hj
    obtain ⟨js, h', rfl⟩ := hj
    simp only [PSlice.elems] at h ⊢
    rw [required_list, compC_encList h h']

theorem cf_list {v : Int} {α : Type} {oe : Bool} {s : Sch} {c : JCodec α} {p : PSlice α} {P : α → Prop}
    (h : ∀ a ∈ p.elems, CompC v s c a (P a)) :
    FieldComp v (some (.list s)) oe (JCodec.pslice c) p (∀ a ∈ p.elems, P a) := by
  simp only [FieldComp]
  split
  · rename_i he
    rw [Bool.and_eq_true] at he
    cases p <;> simp_all [JCodec.pslice, PSlice.isNil, PSlice.elems]
  · intro j hj
    simpa using comp_list h j hj

theorem cf_list_true {v : Int} {α : Type} {oe : Bool} {s : Sch} {c : JCodec α} {p : PSlice α}
    (h : ∀ a ∈ p.elems, CompC v s c a True) : FieldComp v (some (.list s)) oe (JCodec.pslice c) p True := by
  have := cf_list (oe := oe) (P := fun _ => True) h
  simpa using this

/-! ### Which fields are not left out -/

theorem nem_string {a : String} : JCodec.string.empty a = false ↔ a ≠ "" := by simp [JCodec.string]
theorem nem_bomReference {a : BOMReference} : J.bomReference.empty a = false ↔ a ≠ ⟨""⟩ := by
  cases a; simp [J.bomReference]
theorem nem_option {α : Type} {c : JCodec α} {o : Option α} : (JCodec.option c).empty o = false ↔ o ≠ none := by
  cases o <;> simp [JCodec.option]
theorem nem_pslice {α : Type} {c : JCodec α} {p : PSlice α} : (JCodec.pslice c).empty p = false ↔ p ≠ .nil := by
  cases p <;> simp [JCodec.pslice, PSlice.isNil]

variable [FloatIO]

theorem SameAt.compC {v : Int} {s : Sch} {α : Type} {C D : JCodec α} {a : α} {Q : Prop} (h : SameAt C D a)
    (hD : CompC v s D a Q) : CompC v s C a Q := fun j hj => hD j (h.enc ▸ hj)

theorem comp_ike {v : Int} {σ : Type} {S : JCodec σ} {get : σ → BOMReference}
    {put : σ → BOMReference → σ} {x : σ} {n : Int} {p : Place} (h : CompC v (.place p) S x True) :
    CompC v (.alt .str (.since n (.place p))) (J.ikev2 S get put) x True := by
  intro j hj
  rw [required_alt, required_since]
  simp only [J.ikev2] at hj
  split at hj
  · simp only [Option.some.injEq] at hj
    subst hj
    exact iff_true_intro ⟨.str _, required_place_str⟩
  · exact iff_true_intro ⟨.str _, (h j hj).2 trivial⟩

omit [FloatIO] in
theorem completeComponentList_iff {v : Int} (xs : List Component) :
    CompleteComponentList v xs ↔ ∀ c ∈ xs, c.Complete v := by
  induction xs with
  | nil => simp [CompleteComponentList]
  | cons x xs ih => simp [CompleteComponentList, ih]
omit [FloatIO] in
theorem completeComponents_iff {v : Int} (p : PSlice Component) :
    CompleteComponents v p ↔ ∀ c ∈ p.elems, c.Complete v := by
  cases p <;> simp [CompleteComponents, PSlice.elems, completeComponentList_iff]
omit [FloatIO] in
theorem completePedigreeOpt_iff {v : Int} (o : Option (Pedigree Component)) :
    CompletePedigreeOpt v o ↔ ∀ p ∈ o, CompletePedigree v p := by
  cases o <;> simp [CompletePedigreeOpt]
omit [FloatIO] in
theorem completeServiceList_iff {v : Int} (xs : List Service) : CompleteServiceList v xs ↔ ∀ c ∈ xs, c.Complete v := by
  induction xs with
  | nil => simp [CompleteServiceList]
  | cons x xs ih => simp [CompleteServiceList, ih]
omit [FloatIO] in
theorem completeServices_iff {v : Int} (p : PSlice Service) :
    CompleteServices v p ↔ ∀ c ∈ p.elems, c.Complete v := by
  cases p <;> simp [CompleteServices, PSlice.elems, completeServiceList_iff]


theorem comp_advisory (v : Int) (x : Advisory) : CompC v (.place .advisory) J.advisory x True := by
  refine CompC.congr (comp_struct (
    compF_plain (some .str) rfl (cf_plain rfl) <|
    compF_plain (some .str) rfl (cf_plain rfl) <|
    compF_nil)) ?_
  simp [Place.Needs, J.advisoryFields, JFields.Writes, Advisory.toP, nem_string, nem_bomReference, nem_option, nem_pslice, and_assoc]

theorem comp_affectedVersions (v : Int) (x : AffectedVersions) : CompC v (.place .affectedVersions) J.affectedVersions x (AffectedVersions.Complete v x) := by
  refine CompC.congr (comp_struct (
    compF_plain (some .str) rfl (cf_plain rfl) <|
    compF_plain (some .str) rfl (cf_plain rfl) <|
    compF_plain (some .str) rfl (cf_plain rfl) <|
    compF_nil)) ?_
  simp [Place.Needs, AffectedVersions.Complete, J.affectedVersionsFields, JFields.Writes, AffectedVersions.toP, nem_string, nem_bomReference, nem_option, nem_pslice, and_assoc]

theorem comp_affects (v : Int) (x : Affects) : CompC v (.place .vulnerabilityAffects) J.affects x (Affects.Complete v x) := by
  refine CompC.congr (comp_struct (
    compF_plain (some .str) rfl (cf_plain rfl) <|
    compF_field (some (.list (.place .affectedVersions))) rfl (cf_list (fun a _ => comp_affectedVersions v a)) <|
    compF_nil)) ?_
  simp [Place.Needs, Affects.Complete, J.affectsFields, JFields.Writes, Affects.toP, nem_string, nem_bomReference, nem_option, nem_pslice, and_assoc]

theorem comp_attachedText (v : Int) (x : AttachedText) : CompC v (.place .attachment) J.attachedText x True := by
  refine CompC.congr (comp_struct (
    compF_plain (some .str) rfl (cf_plain rfl) <|
    compF_plain (some .str) rfl (cf_plain rfl) <|
    compF_plain (some .str) rfl (cf_plain rfl) <|
    compF_nil)) ?_
  simp [Place.Needs, J.attachedTextFields, JFields.Writes, AttachedText.toP, nem_string, nem_bomReference, nem_option, nem_pslice, and_assoc]

theorem comp_property (v : Int) (x : Property) : CompC v (.place .property) J.property x True := by
  refine CompC.congr (comp_struct (
    compF_plain (some .str) rfl (cf_plain rfl) <|
    compF_plain (some .str) rfl (cf_plain rfl) <|
    compF_nil)) ?_
  simp [Place.Needs, J.propertyFields, JFields.Writes, Property.toP, nem_string, nem_bomReference, nem_option, nem_pslice, and_assoc]

theorem comp_componentDataContents (v : Int) (x : ComponentDataContents) : CompC v (.place .componentDataContents) J.componentDataContents x True := by
  refine CompC.congr (comp_struct (
    compF_plain (some (.place .attachment)) rfl (cf_opt_true (fun a _ => comp_attachedText v a)) <|
    compF_plain (some .str) rfl (cf_plain rfl) <|
    compF_plain (some (.list (.place .property))) rfl (cf_list_true (fun a _ => comp_property v a)) <|
    compF_nil)) ?_
  simp [Place.Needs, ]

theorem comp_componentDataGraphic (v : Int) (x : ComponentDataGraphic) : CompC v (.place .graphic) J.componentDataGraphic x True := by
  refine CompC.congr (comp_struct (
    compF_plain (some .str) rfl (cf_plain rfl) <|
    compF_plain (some (.place .attachment)) rfl (cf_opt_true (fun a _ => comp_attachedText v a)) <|
    compF_nil)) ?_
  simp [Place.Needs, ]

theorem comp_componentDataGraphics (v : Int) (x : ComponentDataGraphics) : CompC v (.place .graphicsCollection) J.componentDataGraphics x True := by
  refine CompC.congr (comp_struct (
    compF_plain (some .str) rfl (cf_plain rfl) <|
    compF_plain (some (.list (.place .graphic))) rfl (cf_list_true (fun a _ => comp_componentDataGraphic v a)) <|
    compF_nil)) ?_
  simp [Place.Needs, ]

theorem comp_organizationalContact (v : Int) (x : OrganizationalContact) : CompC v (.place .organizationalContact) J.organizationalContact x True := by
  refine CompC.congr (comp_struct (
    compF_plain (some (.since SpecVersion1_5 .str)) rfl (cf_plain rfl) <|
    compF_plain (some .str) rfl (cf_plain rfl) <|
    compF_plain (some .str) rfl (cf_plain rfl) <|
    compF_plain (some .str) rfl (cf_plain rfl) <|
    compF_nil)) ?_
  simp [Place.Needs, ]

theorem comp_postalAddress (v : Int) (x : PostalAddress) : CompC v (.place .postalAddress) J.postalAddress x True := by
  refine CompC.congr (comp_struct (
    compF_plain (some .str) rfl (cf_plain rfl) <|
    compF_plain (some .str) rfl (cf_plain rfl) <|
    compF_plain (some .str) rfl (cf_plain rfl) <|
    compF_plain (some .str) rfl (cf_plain rfl) <|
    compF_plain (some .str) rfl (cf_plain rfl) <|
    compF_plain (some .str) rfl (cf_plain rfl) <|
    compF_plain (some .str) rfl (cf_plain rfl) <|
    compF_nil)) ?_
  simp [Place.Needs, ]

theorem comp_organizationalEntity (v : Int) (x : OrganizationalEntity) : CompC v (.place .organizationalEntity) J.organizationalEntity x True := by
  refine CompC.congr (comp_struct (
    compF_plain (some (.since SpecVersion1_5 .str)) rfl (cf_plain rfl) <|
    compF_plain (some .str) rfl (cf_plain rfl) <|
    compF_plain (some (.since SpecVersion1_6 (.place .postalAddress))) rfl (cf_since (cf_opt_true (fun a _ => comp_postalAddress v a))) <|
    compF_plain (some (.list .str)) rfl (cf_plain rfl) <|
    compF_plain (some (.list (.place .organizationalContact))) rfl (cf_list_true (fun a _ => comp_organizationalContact v a)) <|
    compF_nil)) ?_
  simp [Place.Needs, ]

theorem comp_componentDataGovernanceResponsibleParty (v : Int) (x : ComponentDataGovernanceResponsibleParty) : CompC v (.place .dataGovernanceResponsibleParty) J.componentDataGovernanceResponsibleParty x (ComponentDataGovernanceResponsibleParty.Complete v x) := by
  refine CompC.congr (comp_struct (
    compF_plain (some (.place .organizationalEntity)) rfl (cf_opt_true (fun a _ => comp_organizationalEntity v a)) <|
    compF_plain (some (.place .organizationalContact)) rfl (cf_opt_true (fun a _ => comp_organizationalContact v a)) <|
    compF_nil)) ?_
  simp [Place.Needs, ComponentDataGovernanceResponsibleParty.Complete, J.componentDataGovernanceResponsiblePartyFields, JFields.Writes, ComponentDataGovernanceResponsibleParty.toP, nem_string, nem_bomReference, nem_option, nem_pslice, and_assoc]

theorem comp_dataGovernance (v : Int) (x : DataGovernance) : CompC v (.place .dataGovernance) J.dataGovernance x (DataGovernance.Complete v x) := by
  refine CompC.congr (comp_struct (
    compF_field (some (.list (.place .dataGovernanceResponsibleParty))) rfl (cf_list (fun a _ => comp_componentDataGovernanceResponsibleParty v a)) <|
    compF_field (some (.list (.place .dataGovernanceResponsibleParty))) rfl (cf_list (fun a _ => comp_componentDataGovernanceResponsibleParty v a)) <|
    compF_field (some (.list (.place .dataGovernanceResponsibleParty))) rfl (cf_list (fun a _ => comp_componentDataGovernanceResponsibleParty v a)) <|
    compF_nil)) ?_
  simp [Place.Needs, DataGovernance.Complete, DataGovernance.toP]

theorem comp_componentData (v : Int) (x : ComponentData) : CompC v (.place .componentData) J.componentData x (ComponentData.Complete v x) := by
  refine CompC.congr (comp_struct (
    compF_plain (some .str) rfl (cf_plain rfl) <|
    compF_plain (some .str) rfl (cf_plain rfl) <|
    compF_plain (some .str) rfl (cf_plain rfl) <|
    compF_plain (some (.place .componentDataContents)) rfl (cf_opt_true (fun a _ => comp_componentDataContents v a)) <|
    compF_plain (some .str) rfl (cf_plain rfl) <|
    compF_plain (some (.list .str)) rfl (cf_plain rfl) <|
    compF_plain (some (.place .graphicsCollection)) rfl (cf_opt_true (fun a _ => comp_componentDataGraphics v a)) <|
    compF_plain (some .str) rfl (cf_plain rfl) <|
    compF_field (some (.place .dataGovernance)) rfl (cf_opt (fun a _ => comp_dataGovernance v a)) <|
    compF_nil)) ?_
  simp [Place.Needs, ComponentData.Complete, J.componentDataFields, JFields.Writes, ComponentData.toP, nem_string, nem_bomReference, nem_option, nem_pslice, and_assoc]

theorem comp_componentData_modelDataset (v : Int) (x : ComponentData) : CompC v (.place .modelDataset) J.componentData x (ComponentData.CompleteModelDataset v x) := by
  refine CompC.congr (comp_struct (
    compF_plain (some .str) rfl (cf_plain rfl) <|
    compF_plain (some .str) rfl (cf_plain rfl) <|
    compF_plain (some .str) rfl (cf_plain rfl) <|
    compF_plain (some (.place .componentDataContents)) rfl (cf_opt_true (fun a _ => comp_componentDataContents v a)) <|
    compF_plain (some .str) rfl (cf_plain rfl) <|
    compF_plain (some (.list .str)) rfl (cf_plain rfl) <|
    compF_plain (some (.place .graphicsCollection)) rfl (cf_opt_true (fun a _ => comp_componentDataGraphics v a)) <|
    compF_plain (some .str) rfl (cf_plain rfl) <|
    compF_field (some (.place .dataGovernance)) rfl (cf_opt (fun a _ => comp_dataGovernance v a)) <|
    compF_nil)) ?_
  simp [Place.Needs, ComponentData.CompleteModelDataset, ComponentData.toP]

theorem comp_hash (v : Int) (x : Hash) : CompC v (.place .hash) J.hash x True := by
  refine CompC.congr (comp_struct (
    compF_plain (some .str) rfl (cf_plain rfl) <|
    compF_plain (some .str) rfl (cf_plain rfl) <|
    compF_nil)) ?_
  simp [Place.Needs, J.hashFields, JFields.Writes, Hash.toP, nem_string, nem_bomReference, nem_option, nem_pslice, and_assoc]

theorem comp_relatedCryptographicAsset (v : Int) (x : RelatedCryptographicAsset) : CompC v (.place .relatedCryptographicAsset) J.relatedCryptographicAsset x True := by
  refine CompC.congr (comp_struct (
    compF_plain (some .str) rfl (cf_plain rfl) <|
    compF_plain (some .str) rfl (cf_plain rfl) <|
    compF_nil)) ?_
  simp [Place.Needs, ]

theorem comp_predefinedCertificateState (v : Int) (x : PredefinedCertificateState) : CompC v (.place .certificateState) J.predefinedCertificateState x True := by
  refine CompC.congr (comp_struct (
    compF_plain (some .str) rfl (cf_plain rfl) <|
    compF_plain (some .str) rfl (cf_plain rfl) <|
    compF_nil)) ?_
  simp [Place.Needs, J.predefinedCertificateStateFields, JFields.Writes, PredefinedCertificateState.toP, nem_string, nem_bomReference, nem_option, nem_pslice, and_assoc]

theorem comp_customCertificateState (v : Int) (x : CustomCertificateState) : CompC v (.place .certificateState) J.customCertificateState x True := by
  refine CompC.congr (comp_struct (
    compF_plain (some .str) rfl (cf_plain rfl) <|
    compF_plain (some .str) rfl (cf_plain rfl) <|
    compF_plain (some .str) rfl (cf_plain rfl) <|
    compF_nil)) ?_
  simp [Place.Needs, J.customCertificateStateFields, JFields.Writes, CustomCertificateState.toP, nem_string, nem_bomReference, nem_option, nem_pslice, and_assoc]

theorem comp_certificateState (v : Int) (x : CertificateState) :
    CompC v (.place .certificateState) J.certificateState x (x.Complete v) := by
  intro j hj
  obtain ⟨a, b⟩ := x
  cases a <;> cases b <;> simp only [J.certificateState] at hj
  · simp only [Option.some.injEq] at hj; subst hj
    simp [required_place, CertificateState.Complete, Place.Needs]
  · simp [CertificateState.Complete, comp_customCertificateState v _ j hj]
  · simp [CertificateState.Complete, comp_predefinedCertificateState v _ j hj]
  · cases hj


theorem comp_commonCertificateExtension (v : Int) (x : CommonCertificateExtension) : CompC v (.place .certificateExtension) J.commonCertificateExtension x (CommonCertificateExtension.Complete v x) := by
  refine CompC.congr (comp_struct (
    compF_plain (some .str) rfl (cf_plain rfl) <|
    compF_plain (some .str) rfl (cf_plain rfl) <|
    compF_nil)) ?_
  simp [Place.Needs, CommonCertificateExtension.Complete, J.commonCertificateExtensionFields, JFields.Writes, CommonCertificateExtension.toP, nem_string, nem_bomReference, nem_option, nem_pslice, and_assoc]

theorem comp_customCertificateExtension (v : Int) (x : CustomCertificateExtension) : CompC v (.place .certificateExtension) J.customCertificateExtension x True := by
  refine CompC.congr (comp_struct (
    compF_plain (some .str) rfl (cf_plain rfl) <|
    compF_plain (some .str) rfl (cf_plain rfl) <|
    compF_nil)) ?_
  simp [Place.Needs, J.customCertificateExtensionFields, JFields.Writes, CustomCertificateExtension.toP, nem_string, nem_bomReference, nem_option, nem_pslice, and_assoc]

theorem comp_certificateExtension (v : Int) (x : CertificateExtension) :
    CompC v (.place .certificateExtension) J.certificateExtension x (x.Complete v) := by
  intro j hj
  obtain ⟨a, b⟩ := x
  cases a <;> cases b <;> simp only [J.certificateExtension] at hj
  · simp only [Option.some.injEq] at hj; subst hj
    simp [required_place, CertificateExtension.Complete, Place.Needs]
  · simp [CertificateExtension.Complete, comp_customCertificateExtension v _ j hj]
  · simp [CertificateExtension.Complete, comp_commonCertificateExtension v _ j hj]
  · cases hj


theorem comp_certificateProperties (v : Int) (x : CertificateProperties) : CompC v (.place .certificateProperties) J.certificateProperties x (CertificateProperties.Complete v x) := by
  refine CompC.congr (comp_struct (
    compF_plain (some (.since SpecVersion1_7 .str)) rfl (cf_plain rfl) <|
    compF_plain (some .str) rfl (cf_plain rfl) <|
    compF_plain (some .str) rfl (cf_plain rfl) <|
    compF_plain (some .str) rfl (cf_plain rfl) <|
    compF_plain (some .str) rfl (cf_plain rfl) <|
    compF_plain (some .str) rfl (cf_plain rfl) <|
    compF_plain (some .str) rfl (cf_plain rfl) <|
    compF_plain (some .str) rfl (cf_plain rfl) <|
    compF_plain (some .str) rfl (cf_plain rfl) <|
    compF_plain (some (.since SpecVersion1_7 .str)) rfl (cf_plain rfl) <|
    compF_plain (some (.since SpecVersion1_7 (.place .hash))) rfl (cf_since (cf_opt_true (fun a _ => comp_hash v a))) <|
    compF_field (some (.since SpecVersion1_7 (.list (.place .certificateState)))) rfl (cf_since (cf_list (fun a _ => comp_certificateState v a))) <|
    compF_field (some (.since SpecVersion1_7 (.list (.place .certificateExtension)))) rfl (cf_since (cf_list (fun a _ => comp_certificateExtension v a))) <|
    compF_plain (some (.since SpecVersion1_7 (.list (.place .relatedCryptographicAsset)))) rfl (cf_since (cf_list_true (fun a _ => comp_relatedCryptographicAsset v a))) <|
    compF_plain (some (.since SpecVersion1_7 .str)) rfl (cf_plain rfl) <|
    compF_plain (some (.since SpecVersion1_7 .str)) rfl (cf_plain rfl) <|
    compF_plain (some (.since SpecVersion1_7 .str)) rfl (cf_plain rfl) <|
    compF_plain (some (.since SpecVersion1_7 .str)) rfl (cf_plain rfl) <|
    compF_plain (some (.since SpecVersion1_7 .str)) rfl (cf_plain rfl) <|
    compF_nil)) ?_
  simp [Place.Needs, CertificateProperties.Complete, CertificateProperties.toP]

theorem comp_cryptoAlgorithmProperties (v : Int) (x : CryptoAlgorithmProperties) : CompC v (.place .algorithmProperties) J.cryptoAlgorithmProperties x True := by
  refine CompC.congr (comp_struct (
    compF_plain (some .str) rfl (cf_plain rfl) <|
    compF_plain (some .str) rfl (cf_plain rfl) <|
    compF_plain (some (.since SpecVersion1_7 .str)) rfl (cf_plain rfl) <|
    compF_plain (some .str) rfl (cf_plain rfl) <|
    compF_plain (some (.since SpecVersion1_7 .str)) rfl (cf_plain rfl) <|
    compF_plain (some .str) rfl (cf_plain rfl) <|
    compF_plain (some .str) rfl (cf_plain rfl) <|
    compF_plain (some (.list .str)) rfl (cf_plain rfl) <|
    compF_plain (some .str) rfl (cf_plain rfl) <|
    compF_plain (some .str) rfl (cf_plain rfl) <|
    compF_plain (some (.list .str)) rfl (cf_plain rfl) <|
    compF_plain (some .int) rfl (cf_plain rfl) <|
    compF_plain (some .int) rfl (cf_plain rfl) <|
    compF_nil)) ?_
  simp [Place.Needs, ]

theorem comp_cipherSuite (v : Int) (x : CipherSuite) : CompC v (.place .cipherSuite) J.cipherSuite x True := by
  refine CompC.congr (comp_struct (
    compF_plain (some .str) rfl (cf_plain rfl) <|
    compF_plain (some (.list .str)) rfl (cf_plain rfl) <|
    compF_plain (some (.list .str)) rfl (cf_plain rfl) <|
    compF_plain (some (.since SpecVersion1_7 (.list .str))) rfl (cf_plain rfl) <|
    compF_plain (some (.since SpecVersion1_7 (.list .str))) rfl (cf_plain rfl) <|
    compF_nil)) ?_
  simp [Place.Needs, ]

theorem comp_ikev2Auth (v : Int) (x : IKEv2Auth) :
    CompC v (.alt .str (.since SpecVersion1_7 (.place .ikeV2Auth))) J.ikev2Auth x True := by
  refine comp_ike (CompC.congr (comp_struct (
    compF_skip <|
    compF_plain (some .str) rfl (cf_plain rfl) <|
    compF_plain (some .str) rfl (cf_plain rfl) <|
    compF_nil)) ?_)
  simp [Place.Needs]

theorem comp_ikev2Enc (v : Int) (x : IKEv2Enc) :
    CompC v (.alt .str (.since SpecVersion1_7 (.place .ikeV2Enc))) J.ikev2Enc x True := by
  refine comp_ike (CompC.congr (comp_struct (
    compF_skip <|
    compF_plain (some .str) rfl (cf_plain rfl) <|
    compF_plain (some .int) rfl (cf_plain rfl) <|
    compF_plain (some .str) rfl (cf_plain rfl) <|
    compF_nil)) ?_)
  simp [Place.Needs]

theorem comp_ikev2Integ (v : Int) (x : IKEv2Integ) :
    CompC v (.alt .str (.since SpecVersion1_7 (.place .ikeV2Integ))) J.ikev2Integ x True := by
  refine comp_ike (CompC.congr (comp_struct (
    compF_skip <|
    compF_plain (some .str) rfl (cf_plain rfl) <|
    compF_plain (some .str) rfl (cf_plain rfl) <|
    compF_nil)) ?_)
  simp [Place.Needs]

theorem comp_ikev2Ke (v : Int) (x : IKEv2Ke) :
    CompC v (.alt .str (.since SpecVersion1_7 (.place .ikeV2Ke))) J.ikev2Ke x True := by
  refine comp_ike (CompC.congr (comp_struct (
    compF_skip <|
    compF_plain (some .int) rfl (cf_plain rfl) <|
    compF_plain (some .str) rfl (cf_plain rfl) <|
    compF_nil)) ?_)
  simp [Place.Needs]

theorem comp_ikev2Prf (v : Int) (x : IKEv2Prf) :
    CompC v (.alt .str (.since SpecVersion1_7 (.place .ikeV2Prf))) J.ikev2Prf x True := by
  refine comp_ike (CompC.congr (comp_struct (
    compF_skip <|
    compF_plain (some .str) rfl (cf_plain rfl) <|
    compF_plain (some .str) rfl (cf_plain rfl) <|
    compF_nil)) ?_)
  simp [Place.Needs]

theorem comp_ikev2TransformTypes (v : Int) (x : IKEv2TransformTypes) : CompC v (.place .ikev2TransformTypes) J.ikev2TransformTypes x True := by
  refine CompC.congr (comp_struct (
    compF_plain (some (.list (.alt .str (.since SpecVersion1_7 (.place .ikeV2Enc))))) rfl (cf_list_true (fun a _ => comp_ikev2Enc v a)) <|
    compF_plain (some (.list (.alt .str (.since SpecVersion1_7 (.place .ikeV2Prf))))) rfl (cf_list_true (fun a _ => comp_ikev2Prf v a)) <|
    compF_plain (some (.list (.alt .str (.since SpecVersion1_7 (.place .ikeV2Integ))))) rfl (cf_list_true (fun a _ => comp_ikev2Integ v a)) <|
    compF_plain (some (.list (.alt .str (.since SpecVersion1_7 (.place .ikeV2Ke))))) rfl (cf_list_true (fun a _ => comp_ikev2Ke v a)) <|
    compF_plain (some .bool) rfl (cf_plain rfl) <|
    compF_plain (some (.list (.alt .str (.since SpecVersion1_7 (.place .ikeV2Auth))))) rfl (cf_list_true (fun a _ => comp_ikev2Auth v a)) <|
    compF_nil)) ?_
  simp [Place.Needs, ]

theorem comp_cryptoProtocolProperties (v : Int) (x : CryptoProtocolProperties) : CompC v (.place .protocolProperties) J.cryptoProtocolProperties x True := by
  refine CompC.congr (comp_struct (
    compF_plain (some .str) rfl (cf_plain rfl) <|
    compF_plain (some .str) rfl (cf_plain rfl) <|
    compF_plain (some (.list (.place .cipherSuite))) rfl (cf_list_true (fun a _ => comp_cipherSuite v a)) <|
    compF_plain (some (.place .ikev2TransformTypes)) rfl (cf_opt_true (fun a _ => comp_ikev2TransformTypes v a)) <|
    compF_plain (some (.list .str)) rfl (cf_plain rfl) <|
    compF_plain (some (.since SpecVersion1_7 (.list (.place .relatedCryptographicAsset)))) rfl (cf_since (cf_list_true (fun a _ => comp_relatedCryptographicAsset v a))) <|
    compF_nil)) ?_
  simp [Place.Needs, ]

theorem comp_securedBy (v : Int) (x : SecuredBy) : CompC v (.place .securedBy) J.securedBy x True := by
  refine CompC.congr (comp_struct (
    compF_plain (some .str) rfl (cf_plain rfl) <|
    compF_plain (some .str) rfl (cf_plain rfl) <|
    compF_nil)) ?_
  simp [Place.Needs, ]

theorem comp_relatedCryptoMaterialProperties (v : Int) (x : RelatedCryptoMaterialProperties) : CompC v (.place .relatedCryptoMaterialProperties) J.relatedCryptoMaterialProperties x True := by
  refine CompC.congr (comp_struct (
    compF_plain (some .str) rfl (cf_plain rfl) <|
    compF_plain (some .str) rfl (cf_plain rfl) <|
    compF_plain (some .str) rfl (cf_plain rfl) <|
    compF_plain (some .str) rfl (cf_plain rfl) <|
    compF_plain (some .str) rfl (cf_plain rfl) <|
    compF_plain (some .str) rfl (cf_plain rfl) <|
    compF_plain (some .str) rfl (cf_plain rfl) <|
    compF_plain (some .str) rfl (cf_plain rfl) <|
    compF_plain (some .str) rfl (cf_plain rfl) <|
    compF_plain (some .int) rfl (cf_plain rfl) <|
    compF_plain (some .str) rfl (cf_plain rfl) <|
    compF_plain (some (.place .securedBy)) rfl (cf_opt_true (fun a _ => comp_securedBy v a)) <|
    compF_plain (some (.since SpecVersion1_7 (.place .hash))) rfl (cf_since (cf_opt_true (fun a _ => comp_hash v a))) <|
    compF_plain (some (.since SpecVersion1_7 (.list (.place .relatedCryptographicAsset)))) rfl (cf_since (cf_list_true (fun a _ => comp_relatedCryptographicAsset v a))) <|
    compF_nil)) ?_
  simp [Place.Needs, ]

theorem comp_cryptoProperties (v : Int) (x : CryptoProperties) : CompC v (.place .cryptoProperties) J.cryptoProperties x (CryptoProperties.Complete v x) := by
  refine CompC.congr (comp_struct (
    compF_plain (some .str) rfl (cf_plain rfl) <|
    compF_plain (some (.place .algorithmProperties)) rfl (cf_opt_true (fun a _ => comp_cryptoAlgorithmProperties v a)) <|
    compF_field (some (.place .certificateProperties)) rfl (cf_opt (fun a _ => comp_certificateProperties v a)) <|
    compF_plain (some (.place .relatedCryptoMaterialProperties)) rfl (cf_opt_true (fun a _ => comp_relatedCryptoMaterialProperties v a)) <|
    compF_plain (some (.place .protocolProperties)) rfl (cf_opt_true (fun a _ => comp_cryptoProtocolProperties v a)) <|
    compF_plain (some .str) rfl (cf_plain rfl) <|
    compF_nil)) ?_
  simp [Place.Needs, CryptoProperties.Complete, J.cryptoPropertiesFields, JFields.Writes, CryptoProperties.toP, nem_string, nem_bomReference, nem_option, nem_pslice, and_assoc]

theorem comp_callstackFrame (v : Int) (x : CallstackFrame) : CompC v (.place .componentEvidenceCallstackFrames) J.callstackFrame x (CallstackFrame.Complete v x) := by
  refine CompC.congr (comp_struct (
    compF_plain (some .str) rfl (cf_plain rfl) <|
    compF_plain (some .str) rfl (cf_plain rfl) <|
    compF_plain (some .str) rfl (cf_plain rfl) <|
    compF_plain (some (.list .str)) rfl (cf_plain rfl) <|
    compF_plain (some .int) rfl (cf_plain rfl) <|
    compF_plain (some .int) rfl (cf_plain rfl) <|
    compF_plain (some .str) rfl (cf_plain rfl) <|
    compF_nil)) ?_
  simp [Place.Needs, CallstackFrame.Complete, J.callstackFrameFields, JFields.Writes, CallstackFrame.toP, nem_string, nem_bomReference, nem_option, nem_pslice, and_assoc]

theorem comp_callstack (v : Int) (x : Callstack) : CompC v (.place .componentEvidenceCallstack) J.callstack x (Callstack.Complete v x) := by
  refine CompC.congr (comp_struct (
    compF_field (some (.list (.place .componentEvidenceCallstackFrames))) rfl (cf_list (fun a _ => comp_callstackFrame v a)) <|
    compF_nil)) ?_
  simp [Place.Needs, Callstack.Complete, Callstack.toP]

theorem comp_copyright (v : Int) (x : Copyright) : CompC v (.place .copyright) J.copyright x True := by
  refine CompC.congr (comp_struct (
    compF_plain (some .str) rfl (cf_plain rfl) <|
    compF_nil)) ?_
  simp [Place.Needs, J.copyrightFields, JFields.Writes, Copyright.toP, nem_string, nem_bomReference, nem_option, nem_pslice, and_assoc]

theorem comp_evidenceIdentityMethod (v : Int) (x : EvidenceIdentityMethod) : CompC v (.place .componentIdentityEvidenceMethods) J.evidenceIdentityMethod x (EvidenceIdentityMethod.Complete v x) := by
  refine CompC.congr (comp_struct (
    compF_plain (some .str) rfl (cf_plain rfl) <|
    compF_plain (some .num) rfl (cf_plain rfl) <|
    compF_plain (some .str) rfl (cf_plain rfl) <|
    compF_nil)) ?_
  simp [Place.Needs, EvidenceIdentityMethod.Complete, J.evidenceIdentityMethodFields, JFields.Writes, EvidenceIdentityMethod.toP, nem_string, nem_bomReference, nem_option, nem_pslice, and_assoc]

theorem comp_evidenceIdentity (v : Int) (x : EvidenceIdentity) : CompC v (.place .componentIdentityEvidence) J.evidenceIdentity x (EvidenceIdentity.Complete v x) := by
  refine CompC.congr (comp_struct (
    compF_plain (some .str) rfl (cf_plain rfl) <|
    compF_plain (some .num) rfl (cf_plain rfl) <|
    compF_plain (some (.since SpecVersion1_6 .str)) rfl (cf_plain rfl) <|
    compF_field (some (.list (.place .componentIdentityEvidenceMethods))) rfl (cf_list (fun a _ => comp_evidenceIdentityMethod v a)) <|
    compF_plain (some (.list .str)) rfl (cf_plain rfl) <|
    compF_nil)) ?_
  simp [Place.Needs, EvidenceIdentity.Complete, J.evidenceIdentityFields, JFields.Writes, EvidenceIdentity.toP, nem_string, nem_bomReference, nem_option, nem_pslice, and_assoc]

theorem comp_evidenceIdentityChoice (v : Int) (x : EvidenceIdentityChoice) :
    CompC v (.alt (.since SpecVersion1_6 (.list (.place .componentIdentityEvidence))) (.place .componentIdentityEvidence)) J.evidenceIdentityChoice x (x.Complete v) := by
  intro j hj
  obtain ⟨a, p⟩ := x
  simp only [J.evidenceIdentityChoice] at hj
  rw [required_alt, required_since]
  cases a with
  | some i =>
    simp only at hj
    split at hj
    · cases hj
    · rename_i hp
      have hp : p = .nil := by cases p <;> simp_all [PSlice.isNil]
      subst hp
      obtain ⟨ms, rfl⟩ := struct_is_obj hj
      have := comp_evidenceIdentity v i _ hj
      simp [required_list_obj, this, EvidenceIdentityChoice.Complete, PSlice.elems]
  | none =>
    simp only at hj
    split at hj
    · have h := comp_list (fun a _ => comp_evidenceIdentity v a) j hj
      have hn : HasRequired v (.place .componentIdentityEvidence) j := by
        cases p with
        | list xs =>
          simp only [JCodec.pslice, Option.map_eq_some_iff] at hj
          obtain ⟨js, _, rfl⟩ := hj; exact required_place_arr
        | _ =>
          simp only [JCodec.pslice, Option.some.injEq] at hj
          subst hj; exact required_null _
      rw [h]
      simp [hn, EvidenceIdentityChoice.Complete]
    · rename_i hp
      have hp : p = .nil := by cases p <;> simp_all [PSlice.isNil]
      simp only [Option.some.injEq] at hj
      subst hj hp
      simp [required_null, EvidenceIdentityChoice.Complete, PSlice.elems]


theorem comp_evidenceOccurrence (v : Int) (x : EvidenceOccurrence) : CompC v (.place .componentEvidenceOccurrences) J.evidenceOccurrence x (EvidenceOccurrence.Complete v x) := by
  refine CompC.congr (comp_struct (
    compF_plain (some .str) rfl (cf_plain rfl) <|
    compF_plain (some .str) rfl (cf_plain rfl) <|
    compF_plain (some (.since SpecVersion1_6 .int)) rfl (cf_plain rfl) <|
    compF_plain (some (.since SpecVersion1_6 .int)) rfl (cf_plain rfl) <|
    compF_plain (some (.since SpecVersion1_6 .str)) rfl (cf_plain rfl) <|
    compF_plain (some (.since SpecVersion1_6 .str)) rfl (cf_plain rfl) <|
    compF_nil)) ?_
  simp [Place.Needs, EvidenceOccurrence.Complete, J.evidenceOccurrenceFields, JFields.Writes, EvidenceOccurrence.toP, nem_string, nem_bomReference, nem_option, nem_pslice, and_assoc]

theorem comp_organizationalEntityOrContact (v : Int) (x : OrganizationalEntityOrContact) : CompC v (.place .organizationOrIndividual) J.organizationalEntityOrContact x (OrganizationalEntityOrContact.Complete v x) := by
  refine CompC.congr (comp_struct (
    compF_plain (some (.place .organizationalEntity)) rfl (cf_opt_true (fun a _ => comp_organizationalEntity v a)) <|
    compF_plain (some (.place .organizationalContact)) rfl (cf_opt_true (fun a _ => comp_organizationalContact v a)) <|
    compF_nil)) ?_
  simp [Place.Needs, OrganizationalEntityOrContact.Complete, J.organizationalEntityOrContactFields, JFields.Writes, OrganizationalEntityOrContact.toP, nem_string, nem_bomReference, nem_option, nem_pslice, and_assoc]

theorem comp_organizationalEntityOrContact_patentAssignee (v : Int) (x : OrganizationalEntityOrContact) : CompC v (.place .patentAssignee) J.organizationalEntityOrContact x True := by
  refine CompC.congr (comp_struct (
    compF_plain none rfl (cf_none) <|
    compF_plain none rfl (cf_none) <|
    compF_nil)) ?_
  simp [Place.Needs, ]

theorem comp_licensing (v : Int) (x : Licensing) : CompC v (.place .licensing) J.licensing x (Licensing.Complete v x) := by
  refine CompC.congr (comp_struct (
    compF_plain (some (.list .str)) rfl (cf_plain rfl) <|
    compF_field (some (.place .organizationOrIndividual)) rfl (cf_opt (fun a _ => comp_organizationalEntityOrContact v a)) <|
    compF_field (some (.place .organizationOrIndividual)) rfl (cf_opt (fun a _ => comp_organizationalEntityOrContact v a)) <|
    compF_field (some (.place .organizationOrIndividual)) rfl (cf_opt (fun a _ => comp_organizationalEntityOrContact v a)) <|
    compF_plain (some .str) rfl (cf_plain rfl) <|
    compF_plain (some (.list .str)) rfl (cf_plain rfl) <|
    compF_plain (some .str) rfl (cf_plain rfl) <|
    compF_plain (some .str) rfl (cf_plain rfl) <|
    compF_nil)) ?_
  simp [Place.Needs, Licensing.Complete, Licensing.toP]

theorem comp_license (v : Int) (x : License) : CompC v (.place .license) J.license x (x.Complete v) := by
  suffices h : CompC v (.place .license) J.licenseAlias x (x.Complete v) by
    intro j hj
    simp only [J.license] at hj
    split at hj
    · cases hj
    · split at hj
      · cases hj
      · exact h j hj
  refine CompC.congr (comp_struct (
    compF_plain (some (.since SpecVersion1_5 .str)) rfl (cf_plain rfl) <|
    compF_plain (some .str) rfl (cf_plain rfl) <|
    compF_plain (some .str) rfl (cf_plain rfl) <|
    compF_plain (some (.since SpecVersion1_6 .str)) rfl (cf_plain rfl) <|
    compF_plain (some (.place .attachment)) rfl (cf_opt_true (fun a _ => comp_attachedText v a)) <|
    compF_plain (some .str) rfl (cf_plain rfl) <|
    compF_field (some (.since SpecVersion1_5 (.place .licensing))) rfl (cf_since (cf_opt (fun a _ => comp_licensing v a))) <|
    compF_plain (some (.since SpecVersion1_5 (.list (.place .property)))) rfl (cf_since (cf_list_true (fun a _ => comp_property v a))) <|
    compF_nil)) ?_
  simp [Place.Needs, License.Complete, License.toP, J.licenseFields, JFields.Writes, nem_string, nem_bomReference, nem_option, nem_pslice]


theorem comp_licenseExpressionDetail (v : Int) (x : LicenseExpressionDetail) : CompC v (.place .expressionDetail) J.licenseExpressionDetail x True := by
  refine CompC.congr (comp_struct (
    compF_plain (some .str) rfl (cf_plain rfl) <|
    compF_plain (some .str) rfl (cf_plain rfl) <|
    compF_plain (some (.place .attachment)) rfl (cf_opt_true (fun a _ => comp_attachedText v a)) <|
    compF_plain (some .str) rfl (cf_plain rfl) <|
    compF_nil)) ?_
  simp [Place.Needs, J.licenseExpressionDetailFields, JFields.Writes, LicenseExpressionDetail.toP, nem_string, nem_bomReference, nem_option, nem_pslice, and_assoc]

theorem comp_licenseChoice (v : Int) (x : LicenseChoice) : CompC v (.place .licenseChoice) J.licenseChoice x (LicenseChoice.Complete v x) := by
  refine CompC.congr (comp_struct (
    compF_field (some (.place .license)) rfl (cf_opt (fun a _ => comp_license v a)) <|
    compF_plain (some .str) rfl (cf_plain rfl) <|
    compF_plain (some (.since SpecVersion1_7 (.list (.place .expressionDetail)))) rfl (cf_since (cf_list_true (fun a _ => comp_licenseExpressionDetail v a))) <|
    compF_plain (some (.since SpecVersion1_6 .str)) rfl (cf_plain rfl) <|
    compF_plain (some (.since SpecVersion1_6 .str)) rfl (cf_plain rfl) <|
    compF_field (some (.since SpecVersion1_7 (.place .licensing))) rfl (cf_since (cf_opt (fun a _ => comp_licensing v a))) <|
    compF_plain (some (.since SpecVersion1_7 (.list (.place .property)))) rfl (cf_since (cf_list_true (fun a _ => comp_property v a))) <|
    compF_nil)) ?_
  simp [Place.Needs, LicenseChoice.Complete, J.licenseChoiceFields, JFields.Writes, LicenseChoice.toP, nem_string, nem_bomReference, nem_option, nem_pslice, and_assoc]

theorem comp_evidence (v : Int) (x : Evidence) : CompC v (.place .componentEvidence) J.evidence x (Evidence.Complete v x) := by
  refine CompC.congr (comp_struct (
    compF_field (some (.since SpecVersion1_5 (.alt (.since SpecVersion1_6 (.list (.place .componentIdentityEvidence))) (.place .componentIdentityEvidence)))) rfl (cf_since (cf_opt (fun a _ => comp_evidenceIdentityChoice v a))) <|
    compF_field (some (.since SpecVersion1_5 (.list (.place .componentEvidenceOccurrences)))) rfl (cf_since (cf_list (fun a _ => comp_evidenceOccurrence v a))) <|
    compF_field (some (.since SpecVersion1_5 (.place .componentEvidenceCallstack))) rfl (cf_since (cf_opt (fun a _ => comp_callstack v a))) <|
    compF_field (some (.list (.place .licenseChoice))) rfl (cf_list (fun a _ => comp_licenseChoice v a)) <|
    compF_plain (some (.list (.place .copyright))) rfl (cf_list_true (fun a _ => comp_copyright v a)) <|
    compF_nil)) ?_
  simp [Place.Needs, Evidence.Complete, Evidence.toP]

theorem comp_externalReference (v : Int) (x : ExternalReference) : CompC v (.place .externalReference) J.externalReference x True := by
  refine CompC.congr (comp_struct (
    compF_plain (some .str) rfl (cf_plain rfl) <|
    compF_plain (some .str) rfl (cf_plain rfl) <|
    compF_plain (some (.since SpecVersion1_3 (.list (.place .hash)))) rfl (cf_since (cf_list_true (fun a _ => comp_hash v a))) <|
    compF_plain (some .str) rfl (cf_plain rfl) <|
    compF_plain (some (.since SpecVersion1_7 (.list (.place .property)))) rfl (cf_since (cf_list_true (fun a _ => comp_property v a))) <|
    compF_nil)) ?_
  simp [Place.Needs, J.externalReferenceFields, JFields.Writes, ExternalReference.toP, nem_string, nem_bomReference, nem_option, nem_pslice, and_assoc]

theorem comp_jsfPublicKey (v : Int) (x : JSFPublicKey) : CompC v (.place .publicKey) J.jsfPublicKey x (JSFPublicKey.Complete v x) := by
  refine CompC.congr (comp_struct (
    compF_plain (some .str) rfl (cf_plain rfl) <|
    compF_plain (some .str) rfl (cf_plain rfl) <|
    compF_plain (some .str) rfl (cf_plain rfl) <|
    compF_plain (some .str) rfl (cf_plain rfl) <|
    compF_plain (some .str) rfl (cf_plain rfl) <|
    compF_plain (some .str) rfl (cf_plain rfl) <|
    compF_nil)) ?_
  simp [Place.Needs, JSFPublicKey.Complete, J.jsfPublicKeyFields, JFields.Writes, JSFPublicKey.toP, nem_string, nem_bomReference, nem_option, nem_pslice, and_assoc]

theorem comp_jsfSigner (v : Int) (x : JSFSigner) : CompC v (.place .signer) J.jsfSigner x (JSFSigner.Complete v x) := by
  refine CompC.congr (comp_struct (
    compF_plain (some .str) rfl (cf_plain rfl) <|
    compF_plain (some .str) rfl (cf_plain rfl) <|
    compF_field (some (.place .publicKey)) rfl (cf_val (comp_jsfPublicKey v _)) <|
    compF_plain (some (.list .str)) rfl (cf_plain rfl) <|
    compF_plain (some (.list .str)) rfl (cf_plain rfl) <|
    compF_plain (some .str) rfl (cf_plain rfl) <|
    compF_nil)) ?_
  simp [Place.Needs, JSFSigner.Complete, J.jsfSignerFields, JFields.Writes, JSFSigner.toP, nem_string, nem_bomReference, nem_option, nem_pslice, and_assoc]

theorem comp_jsfSignature (v : Int) (x : JSFSignature) : CompC v (.place .signature) J.jsfSignature x (JSFSignature.Complete v x) := by
  refine CompC.congr (comp_struct (
    compF_skip <|
    compF_field (some (.list (.place .signer))) rfl (cf_list (fun a _ => comp_jsfSigner v a)) <|
    compF_field (some (.list (.place .signer))) rfl (cf_list (fun a _ => comp_jsfSigner v a)) <|
    compF_nil)) ?_
  simp [Place.Needs, JSFSignature.Complete, JSFSignature.toP]

theorem comp_mlModelCO2Measure (v : Int) (x : MLModelCO2Measure) : CompC v (.place .co2Measure) J.mlModelCO2Measure x True := by
  refine CompC.congr (comp_struct (
    compF_plain (some .num) rfl (cf_plain rfl) <|
    compF_plain (some .str) rfl (cf_plain rfl) <|
    compF_nil)) ?_
  simp [Place.Needs, J.mlModelCO2MeasureFields, JFields.Writes, MLModelCO2Measure.toP, nem_string, nem_bomReference, nem_option, nem_pslice, and_assoc]

theorem comp_mlModelEnergyMeasure (v : Int) (x : MLModelEnergyMeasure) : CompC v (.place .energyMeasure) J.mlModelEnergyMeasure x True := by
  refine CompC.congr (comp_struct (
    compF_plain (some .num) rfl (cf_plain rfl) <|
    compF_plain (some .str) rfl (cf_plain rfl) <|
    compF_nil)) ?_
  simp [Place.Needs, J.mlModelEnergyMeasureFields, JFields.Writes, MLModelEnergyMeasure.toP, nem_string, nem_bomReference, nem_option, nem_pslice, and_assoc]

theorem comp_mlModelEnergyProvider (v : Int) (x : MLModelEnergyProvider) : CompC v (.place .energyProvider) J.mlModelEnergyProvider x True := by
  refine CompC.congr (comp_struct (
    compF_plain (some .str) rfl (cf_plain rfl) <|
    compF_plain (some .str) rfl (cf_plain rfl) <|
    compF_plain (some (.place .organizationalEntity)) rfl (cf_opt_true (fun a _ => comp_organizationalEntity v a)) <|
    compF_plain (some .str) rfl (cf_plain rfl) <|
    compF_plain (some (.place .energyMeasure)) rfl (cf_opt_true (fun a _ => comp_mlModelEnergyMeasure v a)) <|
    compF_plain (some (.list (.place .externalReference))) rfl (cf_list_true (fun a _ => comp_externalReference v a)) <|
    compF_nil)) ?_
  simp [Place.Needs, J.mlModelEnergyProviderFields, JFields.Writes, MLModelEnergyProvider.toP, nem_string, nem_bomReference, nem_option, nem_pslice, and_assoc]

theorem comp_mlModelEnergyConsumption (v : Int) (x : MLModelEnergyConsumption) : CompC v (.place .energyConsumption) J.mlModelEnergyConsumption x True := by
  refine CompC.congr (comp_struct (
    compF_plain (some .str) rfl (cf_plain rfl) <|
    compF_plain (some (.list (.place .energyProvider))) rfl (cf_list_true (fun a _ => comp_mlModelEnergyProvider v a)) <|
    compF_plain (some (.place .energyMeasure)) rfl (cf_val (comp_mlModelEnergyMeasure v _)) <|
    compF_plain (some (.place .co2Measure)) rfl (cf_opt_true (fun a _ => comp_mlModelCO2Measure v a)) <|
    compF_plain (some (.place .co2Measure)) rfl (cf_opt_true (fun a _ => comp_mlModelCO2Measure v a)) <|
    compF_plain (some (.list (.place .property))) rfl (cf_list_true (fun a _ => comp_property v a)) <|
    compF_nil)) ?_
  simp [Place.Needs, J.mlModelEnergyConsumptionFields, JFields.Writes, MLModelEnergyConsumption.toP, nem_string, nem_bomReference, nem_option, nem_pslice, and_assoc]

theorem comp_mlModelCardEnvironmentalConsiderations (v : Int) (x : MLModelCardEnvironmentalConsiderations) : CompC v (.place .environmentalConsiderations) J.mlModelCardEnvironmentalConsiderations x True := by
  refine CompC.congr (comp_struct (
    compF_plain (some (.list (.place .energyConsumption))) rfl (cf_list_true (fun a _ => comp_mlModelEnergyConsumption v a)) <|
    compF_plain (some (.list (.place .property))) rfl (cf_list_true (fun a _ => comp_property v a)) <|
    compF_nil)) ?_
  simp [Place.Needs, ]

theorem comp_mlModelCardEthicalConsideration (v : Int) (x : MLModelCardEthicalConsideration) : CompC v (.place .risk) J.mlModelCardEthicalConsideration x True := by
  refine CompC.congr (comp_struct (
    compF_plain (some .str) rfl (cf_plain rfl) <|
    compF_plain (some .str) rfl (cf_plain rfl) <|
    compF_nil)) ?_
  simp [Place.Needs, ]

theorem comp_mlModelCardFairnessAssessment (v : Int) (x : MLModelCardFairnessAssessment) : CompC v (.place .fairnessAssessment) J.mlModelCardFairnessAssessment x True := by
  refine CompC.congr (comp_struct (
    compF_plain (some .str) rfl (cf_plain rfl) <|
    compF_plain (some .str) rfl (cf_plain rfl) <|
    compF_plain (some .str) rfl (cf_plain rfl) <|
    compF_plain (some .str) rfl (cf_plain rfl) <|
    compF_nil)) ?_
  simp [Place.Needs, ]

theorem comp_mlModelCardConsiderations (v : Int) (x : MLModelCardConsiderations) : CompC v (.place .modelCardConsiderations) J.mlModelCardConsiderations x True := by
  refine CompC.congr (comp_struct (
    compF_plain (some (.list .str)) rfl (cf_plain rfl) <|
    compF_plain (some (.list .str)) rfl (cf_plain rfl) <|
    compF_plain (some (.list .str)) rfl (cf_plain rfl) <|
    compF_plain (some (.list .str)) rfl (cf_plain rfl) <|
    compF_plain (some (.list (.place .risk))) rfl (cf_list_true (fun a _ => comp_mlModelCardEthicalConsideration v a)) <|
    compF_plain (some (.since SpecVersion1_6 (.place .environmentalConsiderations))) rfl (cf_since (cf_opt_true (fun a _ => comp_mlModelCardEnvironmentalConsiderations v a))) <|
    compF_plain (some (.list (.place .fairnessAssessment))) rfl (cf_list_true (fun a _ => comp_mlModelCardFairnessAssessment v a)) <|
    compF_nil)) ?_
  simp [Place.Needs, ]

theorem comp_mlDatasetChoice (v : Int) (x : MLDatasetChoice) :
    CompC v (.place .modelDataset) J.mlDatasetChoice x (x.Complete v) := by
  intro j hj
  simp only [J.mlDatasetChoice] at hj
  split at hj
  · rename_i hr
    simp only [Option.some.injEq] at hj
    subst hj
    simp only [MLDatasetChoice.Complete, hr, false_implies, iff_true, required_place, List.mem_singleton, forall_eq]
    refine ⟨trivial, fun s hs => ?_⟩
    cases hs
    exact .str _
  · rename_i hr
    have hr : x.ref = "" := by simpa using hr
    simp only [MLDatasetChoice.Complete, hr, true_implies]
    cases hd : x.componentData with
    | none =>
      simp only [hd, Option.some.injEq] at hj; subst hj; simp [required_place, Place.Needs]
    | some d =>
      simp only [hd] at hj
      simpa using comp_componentData_modelDataset v d j hj


theorem comp_mlInputOutputParameters (v : Int) (x : MLInputOutputParameters) : CompC v (.place .inputOutputMLParameters) J.mlInputOutputParameters x True := by
  refine CompC.congr (comp_struct (
    compF_plain (some .str) rfl (cf_plain rfl) <|
    compF_nil)) ?_
  simp [Place.Needs, ]

theorem comp_mlModelParametersApproach (v : Int) (x : MLModelParametersApproach) : CompC v (.place .modelCardModelParametersApproach) J.mlModelParametersApproach x True := by
  refine CompC.congr (comp_struct (
    compF_plain (some .str) rfl (cf_plain rfl) <|
    compF_nil)) ?_
  simp [Place.Needs, ]

theorem comp_mlModelParameters (v : Int) (x : MLModelParameters) : CompC v (.place .modelCardModelParameters) J.mlModelParameters x (MLModelParameters.Complete v x) := by
  refine CompC.congr (comp_struct (
    compF_plain (some (.place .modelCardModelParametersApproach)) rfl (cf_opt_true (fun a _ => comp_mlModelParametersApproach v a)) <|
    compF_plain (some .str) rfl (cf_plain rfl) <|
    compF_plain (some .str) rfl (cf_plain rfl) <|
    compF_plain (some .str) rfl (cf_plain rfl) <|
    compF_field (some (.list (.place .modelDataset))) rfl (cf_list (fun a _ => comp_mlDatasetChoice v a)) <|
    compF_plain (some (.list (.place .inputOutputMLParameters))) rfl (cf_list_true (fun a _ => comp_mlInputOutputParameters v a)) <|
    compF_plain (some (.list (.place .inputOutputMLParameters))) rfl (cf_list_true (fun a _ => comp_mlInputOutputParameters v a)) <|
    compF_nil)) ?_
  simp [Place.Needs, MLModelParameters.Complete, MLModelParameters.toP]

theorem comp_mlPerformanceMetricConfidenceInterval (v : Int) (x : MLPerformanceMetricConfidenceInterval) : CompC v (.place .performanceMetricConfidenceInterval) J.mlPerformanceMetricConfidenceInterval x True := by
  refine CompC.congr (comp_struct (
    compF_plain (some .str) rfl (cf_plain rfl) <|
    compF_plain (some .str) rfl (cf_plain rfl) <|
    compF_nil)) ?_
  simp [Place.Needs, ]

theorem comp_mlPerformanceMetric (v : Int) (x : MLPerformanceMetric) : CompC v (.place .performanceMetric) J.mlPerformanceMetric x True := by
  refine CompC.congr (comp_struct (
    compF_plain (some .str) rfl (cf_plain rfl) <|
    compF_plain (some .str) rfl (cf_plain rfl) <|
    compF_plain (some .str) rfl (cf_plain rfl) <|
    compF_plain (some (.place .performanceMetricConfidenceInterval)) rfl (cf_opt_true (fun a _ => comp_mlPerformanceMetricConfidenceInterval v a)) <|
    compF_nil)) ?_
  simp [Place.Needs, ]

theorem comp_mlQuantitativeAnalysis (v : Int) (x : MLQuantitativeAnalysis) : CompC v (.place .modelCardQuantitativeAnalysis) J.mlQuantitativeAnalysis x True := by
  refine CompC.congr (comp_struct (
    compF_plain (some (.list (.place .performanceMetric))) rfl (cf_list_true (fun a _ => comp_mlPerformanceMetric v a)) <|
    compF_plain (some (.place .graphicsCollection)) rfl (cf_opt_true (fun a _ => comp_componentDataGraphics v a)) <|
    compF_nil)) ?_
  simp [Place.Needs, ]

theorem comp_mlModelCard (v : Int) (x : MLModelCard) : CompC v (.place .modelCard) J.mlModelCard x (MLModelCard.Complete v x) := by
  refine CompC.congr (comp_struct (
    compF_plain (some .str) rfl (cf_plain rfl) <|
    compF_field (some (.place .modelCardModelParameters)) rfl (cf_opt (fun a _ => comp_mlModelParameters v a)) <|
    compF_plain (some (.place .modelCardQuantitativeAnalysis)) rfl (cf_opt_true (fun a _ => comp_mlQuantitativeAnalysis v a)) <|
    compF_plain (some (.place .modelCardConsiderations)) rfl (cf_opt_true (fun a _ => comp_mlModelCardConsiderations v a)) <|
    compF_nil)) ?_
  simp [Place.Needs, MLModelCard.Complete, MLModelCard.toP]

theorem comp_identifiableAction (v : Int) (x : IdentifiableAction) : CompC v (.place .identifiableAction) J.identifiableAction x True := by
  refine CompC.congr (comp_struct (
    compF_plain (some .str) rfl (cf_plain rfl) <|
    compF_plain (some .str) rfl (cf_plain rfl) <|
    compF_plain (some .str) rfl (cf_plain rfl) <|
    compF_nil)) ?_
  simp [Place.Needs, ]

theorem comp_commit (v : Int) (x : Commit) : CompC v (.place .commit) J.commit x True := by
  refine CompC.congr (comp_struct (
    compF_plain (some .str) rfl (cf_plain rfl) <|
    compF_plain (some .str) rfl (cf_plain rfl) <|
    compF_plain (some (.place .identifiableAction)) rfl (cf_opt_true (fun a _ => comp_identifiableAction v a)) <|
    compF_plain (some (.place .identifiableAction)) rfl (cf_opt_true (fun a _ => comp_identifiableAction v a)) <|
    compF_plain (some .str) rfl (cf_plain rfl) <|
    compF_nil)) ?_
  simp [Place.Needs, ]

theorem comp_diff (v : Int) (x : Diff) : CompC v (.place .diff) J.diff x True := by
  refine CompC.congr (comp_struct (
    compF_plain (some (.place .attachment)) rfl (cf_opt_true (fun a _ => comp_attachedText v a)) <|
    compF_plain (some .str) rfl (cf_plain rfl) <|
    compF_nil)) ?_
  simp [Place.Needs, ]

theorem comp_source (v : Int) (x : Source) : CompC v (.place .vulnerabilitySource) J.source x True := by
  refine CompC.congr (comp_struct (
    compF_plain (some .str) rfl (cf_plain rfl) <|
    compF_plain (some .str) rfl (cf_plain rfl) <|
    compF_nil)) ?_
  simp [Place.Needs, ]

theorem comp_source_issueSource (v : Int) (x : Source) : CompC v (.place .issueSource) J.source x True := by
  refine CompC.congr (comp_struct (
    compF_plain (some .str) rfl (cf_plain rfl) <|
    compF_plain (some .str) rfl (cf_plain rfl) <|
    compF_nil)) ?_
  simp [Place.Needs, ]

theorem comp_issue (v : Int) (x : Issue) : CompC v (.place .issue) J.issue x True := by
  refine CompC.congr (comp_struct (
    compF_plain (some .str) rfl (cf_plain rfl) <|
    compF_plain (some .str) rfl (cf_plain rfl) <|
    compF_plain (some .str) rfl (cf_plain rfl) <|
    compF_plain (some (.place .issueSource)) rfl (cf_opt_true (fun a _ => comp_source_issueSource v a)) <|
    compF_plain (some (.list .str)) rfl (cf_plain rfl) <|
    compF_plain (some .str) rfl (cf_plain rfl) <|
    compF_nil)) ?_
  simp [Place.Needs, J.issueFields, JFields.Writes, Issue.toP, nem_string, nem_bomReference, nem_option, nem_pslice, and_assoc]

theorem comp_patch (v : Int) (x : Patch) : CompC v (.place .patch) J.patch x True := by
  refine CompC.congr (comp_struct (
    compF_plain (some (.place .diff)) rfl (cf_opt_true (fun a _ => comp_diff v a)) <|
    compF_plain (some (.list (.place .issue))) rfl (cf_list_true (fun a _ => comp_issue v a)) <|
    compF_plain (some .str) rfl (cf_plain rfl) <|
    compF_nil)) ?_
  simp [Place.Needs, J.patchFields, JFields.Writes, Patch.toP, nem_string, nem_bomReference, nem_option, nem_pslice, and_assoc]

theorem comp_pedigreeWith (C : JCodec Component) (v : Int) (x : Pedigree Component)
    (h_ancestors : ∀ c ∈ x.ancestors.elems, CompC v (.place .component) C c (c.Complete v))
    (h_descendants : ∀ c ∈ x.descendants.elems, CompC v (.place .component) C c (c.Complete v))
    (h_variants : ∀ c ∈ x.variants.elems, CompC v (.place .component) C c (c.Complete v)) :
    CompC v (.place .componentPedigree) (J.pedigree C) x (CompletePedigree v x) := by
  refine CompC.congr (comp_struct (
    compF_field (some (.list (.place .component))) rfl (cf_list h_ancestors) <|
    compF_field (some (.list (.place .component))) rfl (cf_list h_descendants) <|
    compF_field (some (.list (.place .component))) rfl (cf_list h_variants) <|
    compF_plain (some (.list (.place .commit))) rfl (cf_list_true (fun a _ => comp_commit v a)) <|
    compF_plain (some (.list (.place .patch))) rfl (cf_list_true (fun a _ => comp_patch v a)) <|
    compF_plain (some .str) rfl (cf_plain rfl) <|
    compF_nil)) ?_
  cases x
  simp only [CompletePedigree, Pedigree.toP, completeComponents_iff, and_true, and_assoc, Place.Needs, true_and]


theorem comp_note (v : Int) (x : Note) : CompC v (.place .note) J.note x True := by
  refine CompC.congr (comp_struct (
    compF_plain (some .str) rfl (cf_plain rfl) <|
    compF_plain (some (.place .attachment)) rfl (cf_val (comp_attachedText v _)) <|
    compF_nil)) ?_
  simp [Place.Needs, J.noteFields, JFields.Writes, Note.toP, nem_string, nem_bomReference, nem_option, nem_pslice, and_assoc]

theorem comp_releaseNotes (v : Int) (x : ReleaseNotes) : CompC v (.place .releaseNotes) J.releaseNotes x True := by
  refine CompC.congr (comp_struct (
    compF_plain (some .str) rfl (cf_plain rfl) <|
    compF_plain (some .str) rfl (cf_plain rfl) <|
    compF_plain (some .str) rfl (cf_plain rfl) <|
    compF_plain (some .str) rfl (cf_plain rfl) <|
    compF_plain (some .str) rfl (cf_plain rfl) <|
    compF_plain (some .str) rfl (cf_plain rfl) <|
    compF_plain (some (.list .str)) rfl (cf_plain rfl) <|
    compF_plain (some (.list .str)) rfl (cf_plain rfl) <|
    compF_plain (some (.list (.place .issue))) rfl (cf_list_true (fun a _ => comp_issue v a)) <|
    compF_plain (some (.list (.place .note))) rfl (cf_list_true (fun a _ => comp_note v a)) <|
    compF_plain (some (.list (.place .property))) rfl (cf_list_true (fun a _ => comp_property v a)) <|
    compF_nil)) ?_
  simp [Place.Needs, J.releaseNotesFields, JFields.Writes, ReleaseNotes.toP, nem_string, nem_bomReference, nem_option, nem_pslice, and_assoc]

theorem comp_swid (v : Int) (x : SWID) : CompC v (.place .swid) J.swid x True := by
  refine CompC.congr (comp_struct (
    compF_plain (some (.place .attachment)) rfl (cf_opt_true (fun a _ => comp_attachedText v a)) <|
    compF_plain (some .str) rfl (cf_plain rfl) <|
    compF_plain (some .str) rfl (cf_plain rfl) <|
    compF_plain (some .str) rfl (cf_plain rfl) <|
    compF_plain (some .str) rfl (cf_plain rfl) <|
    compF_plain (some .int) rfl (cf_plain rfl) <|
    compF_plain (some .bool) rfl (cf_plain rfl) <|
    compF_nil)) ?_
  simp [Place.Needs, J.swidFields, JFields.Writes, SWID.toP, nem_string, nem_bomReference, nem_option, nem_pslice, and_assoc]

theorem comp_asserterChoice (v : Int) (x : AsserterChoice) :
    CompC v (.alt .str (.place .asserter)) J.asserterChoice x True := by
  intro j hj
  have no : ∀ (k : String) (j : Json), Place.asserter.members.lookup k = none →
      HasRequired v (.alt .str (.place .asserter)) (.obj [(k, j)]) := by
    intro k j hk
    rw [required_alt, required_place]
    refine ⟨.str _, trivial, fun m hm s hs => ?_⟩
    rw [List.mem_singleton] at hm
    subst hm
    rw [hk] at hs
    cases hs
  obtain ⟨a, b, c⟩ := x
  refine iff_true_intro ?_
  cases a with
  | some o =>
    simp only [J.asserterChoice, Option.map_eq_some_iff] at hj
    obtain ⟨j', _, rfl⟩ := hj
    exact no "organization" j' rfl
  | none =>
    cases b with
    | some o =>
      simp only [J.asserterChoice, Option.map_eq_some_iff] at hj
      obtain ⟨j', _, rfl⟩ := hj
      exact no "individual" j' rfl
    | none =>
      cases c with
      | some o =>
        simp only [J.asserterChoice, Option.map_eq_some_iff] at hj
        obtain ⟨j', _, rfl⟩ := hj
        exact no "ref" j' rfl
      | none =>
        simp only [J.asserterChoice, Option.some.injEq] at hj
        subst hj
        exact .alt (.str _) (.place trivial (by simp))


theorem comp_patentAssertion (v : Int) (x : PatentAssertion) : CompC v (.place .patentAssertion) J.patentAssertion x True := by
  refine CompC.congr (comp_struct (
    compF_plain (some .str) rfl (cf_plain rfl) <|
    compF_plain (some (.list .str)) rfl (cf_plain rfl) <|
    compF_plain (some .str) rfl (cf_plain rfl) <|
    compF_plain (some (.alt .str (.place .asserter))) rfl (cf_opt_true (fun a _ => comp_asserterChoice v a)) <|
    compF_plain (some .str) rfl (cf_plain rfl) <|
    compF_nil)) ?_
  simp [Place.Needs, J.patentAssertionFields, JFields.Writes, PatentAssertion.toP, nem_string, nem_bomReference, nem_option, nem_pslice, and_assoc]

theorem comp_componentWith (C : JCodec Component) (v : Int) (x : Component)
    (h_components : ∀ c ∈ x.components.elems, CompC v (.place .component) C c (c.Complete v))
    (h_pedigree : ∀ p ∈ x.pedigree, CompC v (.place .componentPedigree) (J.pedigree C) p (CompletePedigree v p)) :
    CompC v (.place .component) (J.componentWith C) x (x.Complete v) := by
  refine CompC.congr (comp_struct (
    compF_plain (some .str) rfl (cf_plain rfl) <|
    compF_plain (some .str) rfl (cf_plain rfl) <|
    compF_plain (some .str) rfl (cf_plain rfl) <|
    compF_plain (some (.place .organizationalEntity)) rfl (cf_opt_true (fun a _ => comp_organizationalEntity v a)) <|
    compF_plain (some (.since SpecVersion1_6 (.place .organizationalEntity))) rfl (cf_since (cf_opt_true (fun a _ => comp_organizationalEntity v a))) <|
    compF_plain (some .str) rfl (cf_plain rfl) <|
    compF_plain (some (.since SpecVersion1_6 (.list (.place .organizationalContact)))) rfl (cf_since (cf_list_true (fun a _ => comp_organizationalContact v a))) <|
    compF_plain (some .str) rfl (cf_plain rfl) <|
    compF_plain (some .str) rfl (cf_plain rfl) <|
    compF_plain (some .str) rfl (cf_plain rfl) <|
    compF_plain (some .str) rfl (cf_plain rfl) <|
    compF_plain (some .str) rfl (cf_plain rfl) <|
    compF_plain (some .str) rfl (cf_plain rfl) <|
    compF_plain (some (.list (.place .hash))) rfl (cf_list_true (fun a _ => comp_hash v a)) <|
    compF_field (some (.list (.place .licenseChoice))) rfl (cf_list (fun a _ => comp_licenseChoice v a)) <|
    compF_plain (some .str) rfl (cf_plain rfl) <|
    compF_plain (some .str) rfl (cf_plain rfl) <|
    compF_plain (some .str) rfl (cf_plain rfl) <|
    compF_plain (some (.since SpecVersion1_6 (.list .str))) rfl (cf_plain rfl) <|
    compF_plain (some (.since SpecVersion1_6 (.list .str))) rfl (cf_plain rfl) <|
    compF_plain (some (.place .swid)) rfl (cf_opt_true (fun a _ => comp_swid v a)) <|
    compF_plain (some .bool) rfl (cf_plain rfl) <|
    compF_field (some (.place .componentPedigree)) rfl (cf_opt h_pedigree) <|
    compF_plain (some (.list (.place .externalReference))) rfl (cf_list_true (fun a _ => comp_externalReference v a)) <|
    compF_plain (some (.since SpecVersion1_3 (.list (.place .property)))) rfl (cf_since (cf_list_true (fun a _ => comp_property v a))) <|
    compF_field (some (.list (.place .component))) rfl (cf_list h_components) <|
    compF_field (some (.since SpecVersion1_3 (.place .componentEvidence))) rfl (cf_since (cf_opt (fun a _ => comp_evidence v a))) <|
    compF_plain (some (.since SpecVersion1_4 (.place .releaseNotes))) rfl (cf_since (cf_opt_true (fun a _ => comp_releaseNotes v a))) <|
    compF_field (some (.since SpecVersion1_5 (.place .modelCard))) rfl (cf_since (cf_opt (fun a _ => comp_mlModelCard v a))) <|
    compF_field (some (.since SpecVersion1_5 (.list (.place .componentData)))) rfl (cf_since (cf_list (fun a _ => comp_componentData v a))) <|
    compF_field (some (.since SpecVersion1_6 (.place .cryptoProperties))) rfl (cf_since (cf_opt (fun a _ => comp_cryptoProperties v a))) <|
    compF_plain (some (.since SpecVersion1_6 (.list .str))) rfl (cf_plain rfl) <|
    compF_plain (some (.since SpecVersion1_7 .bool)) rfl (cf_plain rfl) <|
    compF_plain (some (.since SpecVersion1_7 (.list (.place .patentAssertion)))) rfl (cf_since (cf_list_true (fun a _ => comp_patentAssertion v a))) <|
    compF_plain (some (.since SpecVersion1_7 .str)) rfl (cf_plain rfl) <|
    compF_field (some (.since SpecVersion1_4 (.place .signature))) rfl (cf_since (cf_opt (fun a _ => comp_jsfSignature v a))) <|
    compF_nil)) ?_
  cases x
  simp [Place.Needs, J.componentFields, JFields.Writes, Component.Complete, Component.toP, completeComponents_iff,
    completePedigreeOpt_iff, nem_string]

theorem comp_component (v : Int) (x : Component) : CompC v (.place .component) J.component x (x.Complete v) := by
  suffices H : ∀ n (x : Component), x.height ≤ n → CompC v (.place .component) J.component x (x.Complete v) from
    H x.height x (Nat.le_refl _)
  intro n
  induction n with
  | zero => intro x h; rw [Component.height_eq] at h; omega
  | succ n ih =>
    intro x h
    refine (component_sameAt_self x).compC ?_
    rw [Component.height_eq] at h
    have hm : max (heightComponents x.components) (heightPedigreeOpt x.pedigree) ≤ n := by omega
    rw [Nat.max_le] at hm
    have hl : ∀ p : PSlice Component, heightComponents p ≤ n →
        ∀ c ∈ p.elems, CompC v (.place .component) J.component c (c.Complete v) := by
      intro p hp
      rw [heightComponents_le] at hp
      exact fun c hc => ih c (hp c hc)
    refine comp_componentWith _ v x (hl _ hm.1) ?_
    intro p hp
    have hp : x.pedigree = some p := hp
    have hm := hm.2
    simp only [hp, heightPedigreeOpt, heightPedigree_eq, Nat.max_le] at hm
    exact comp_pedigreeWith _ v p (hl _ hm.1) (hl _ hm.2.1) (hl _ hm.2.2)


theorem comp_dataClassification (v : Int) (x : DataClassification) : CompC v (.place .serviceData) J.dataClassification x (DataClassification.Complete v x) := by
  refine CompC.congr (comp_struct (
    compF_plain (some .str) rfl (cf_plain rfl) <|
    compF_plain (some .str) rfl (cf_plain rfl) <|
    compF_plain (some (.since SpecVersion1_5 .str)) rfl (cf_plain rfl) <|
    compF_plain (some (.since SpecVersion1_5 .str)) rfl (cf_plain rfl) <|
    compF_field (some (.since SpecVersion1_5 (.place .dataGovernance))) rfl (cf_since (cf_opt (fun a _ => comp_dataGovernance v a))) <|
    compF_plain (some (.since SpecVersion1_5 (.list .str))) rfl (cf_plain rfl) <|
    compF_plain (some (.since SpecVersion1_5 (.list .str))) rfl (cf_plain rfl) <|
    compF_nil)) ?_
  simp [Place.Needs, DataClassification.Complete, J.dataClassificationFields, JFields.Writes, DataClassification.toP, nem_string, nem_bomReference, nem_option, nem_pslice, and_assoc]

theorem comp_serviceWith (C : JCodec Service) (v : Int) (x : Service)
    (h_services : ∀ c ∈ x.services.elems, CompC v (.place .service) C c (c.Complete v)) :
    CompC v (.place .service) (J.serviceWith C) x (x.Complete v) := by
  refine CompC.congr (comp_struct (
    compF_plain (some .str) rfl (cf_plain rfl) <|
    compF_plain (some (.place .organizationalEntity)) rfl (cf_opt_true (fun a _ => comp_organizationalEntity v a)) <|
    compF_plain (some .str) rfl (cf_plain rfl) <|
    compF_plain (some .str) rfl (cf_plain rfl) <|
    compF_plain (some .str) rfl (cf_plain rfl) <|
    compF_plain (some .str) rfl (cf_plain rfl) <|
    compF_plain (some (.list .str)) rfl (cf_plain rfl) <|
    compF_plain (some .bool) rfl (cf_plain rfl) <|
    compF_plain (some .bool) rfl (cf_plain rfl) <|
    compF_field (some (.list (.place .serviceData))) rfl (cf_list (fun a _ => comp_dataClassification v a)) <|
    compF_field (some (.list (.place .licenseChoice))) rfl (cf_list (fun a _ => comp_licenseChoice v a)) <|
    compF_plain (some (.list (.place .externalReference))) rfl (cf_list_true (fun a _ => comp_externalReference v a)) <|
    compF_plain (some (.since SpecVersion1_3 (.list (.place .property)))) rfl (cf_since (cf_list_true (fun a _ => comp_property v a))) <|
    compF_field (some (.list (.place .service))) rfl (cf_list h_services) <|
    compF_plain (some (.since SpecVersion1_4 (.place .releaseNotes))) rfl (cf_since (cf_opt_true (fun a _ => comp_releaseNotes v a))) <|
    compF_plain (some (.since SpecVersion1_6 (.list .str))) rfl (cf_plain rfl) <|
    compF_plain (some (.since SpecVersion1_5 .str)) rfl (cf_plain rfl) <|
    compF_plain (some (.since SpecVersion1_7 (.list (.place .patentAssertion)))) rfl (cf_since (cf_list_true (fun a _ => comp_patentAssertion v a))) <|
    compF_field (some (.since SpecVersion1_4 (.place .signature))) rfl (cf_since (cf_opt (fun a _ => comp_jsfSignature v a))) <|
    compF_nil)) ?_
  cases x
  simp [Place.Needs, J.serviceFields, JFields.Writes, Service.Complete, Service.toP, completeServices_iff]

theorem comp_service (v : Int) (x : Service) : CompC v (.place .service) J.service x (x.Complete v) := by
  suffices H : ∀ n (x : Service), x.height ≤ n → CompC v (.place .service) J.service x (x.Complete v) from
    H x.height x (Nat.le_refl _)
  intro n
  induction n with
  | zero => intro x h; rw [Service.height_eq] at h; omega
  | succ n ih =>
    intro x h
    refine (service_sameAt_self x).compC ?_
    rw [Service.height_eq] at h
    have hm : heightServices x.services ≤ n := by omega
    rw [heightServices_le] at hm
    exact comp_serviceWith _ v x fun c hc => ih c (hm c hc)


theorem comp_annotator (v : Int) (x : Annotator) : CompC v (.place .annotationsAnnotator) J.annotator x (Annotator.Complete v x) := by
  refine CompC.congr (comp_struct (
    compF_plain (some (.place .organizationalEntity)) rfl (cf_opt_true (fun a _ => comp_organizationalEntity v a)) <|
    compF_plain (some (.place .organizationalContact)) rfl (cf_opt_true (fun a _ => comp_organizationalContact v a)) <|
    compF_field (some (.place .component)) rfl (cf_opt (fun a _ => comp_component v a)) <|
    compF_field (some (.place .service)) rfl (cf_opt (fun a _ => comp_service v a)) <|
    compF_nil)) ?_
  simp [Place.Needs, Annotator.Complete, J.annotatorFields, JFields.Writes, Annotator.toP, nem_string, nem_bomReference, nem_option, nem_pslice, and_assoc]

theorem comp_annotation (v : Int) (x : Annotation) : CompC v (.place .annotations) J.annotation x (Annotation.Complete v x) := by
  refine CompC.congr (comp_struct (
    compF_plain (some .str) rfl (cf_plain rfl) <|
    compF_plain (some (.list .str)) rfl (cf_plain rfl) <|
    compF_field (some (.place .annotationsAnnotator)) rfl (cf_opt (fun a _ => comp_annotator v a)) <|
    compF_plain (some .str) rfl (cf_plain rfl) <|
    compF_plain (some .str) rfl (cf_plain rfl) <|
    compF_field (some (.place .signature)) rfl (cf_opt (fun a _ => comp_jsfSignature v a)) <|
    compF_nil)) ?_
  simp [Place.Needs, Annotation.Complete, J.annotationFields, JFields.Writes, Annotation.toP, nem_string, nem_bomReference, nem_option, nem_pslice, and_assoc]

theorem comp_assessor (v : Int) (x : Assessor) : CompC v (.place .assessors) J.assessor x True := by
  refine CompC.congr (comp_struct (
    compF_plain (some .str) rfl (cf_plain rfl) <|
    compF_plain (some .bool) rfl (cf_plain rfl) <|
    compF_plain (some (.place .organizationalEntity)) rfl (cf_opt_true (fun a _ => comp_organizationalEntity v a)) <|
    compF_nil)) ?_
  simp [Place.Needs, ]

theorem comp_attestationConformance (v : Int) (x : AttestationConformance) : CompC v (.place .conformance) J.attestationConformance x True := by
  refine CompC.congr (comp_struct (
    compF_plain (some .num) rfl (cf_plain rfl) <|
    compF_plain (some .str) rfl (cf_plain rfl) <|
    compF_plain (some (.list .str)) rfl (cf_plain rfl) <|
    compF_nil)) ?_
  simp [Place.Needs, ]

theorem comp_attestationConfidence (v : Int) (x : AttestationConfidence) : CompC v (.place .confidence) J.attestationConfidence x True := by
  refine CompC.congr (comp_struct (
    compF_plain (some .num) rfl (cf_plain rfl) <|
    compF_plain (some .str) rfl (cf_plain rfl) <|
    compF_nil)) ?_
  simp [Place.Needs, ]

theorem comp_attestationMap (v : Int) (x : AttestationMap) : CompC v (.place .attestationMap) J.attestationMap x True := by
  refine CompC.congr (comp_struct (
    compF_plain (some .str) rfl (cf_plain rfl) <|
    compF_plain (some (.list .str)) rfl (cf_plain rfl) <|
    compF_plain (some (.list .str)) rfl (cf_plain rfl) <|
    compF_plain (some (.place .conformance)) rfl (cf_opt_true (fun a _ => comp_attestationConformance v a)) <|
    compF_plain (some (.place .confidence)) rfl (cf_opt_true (fun a _ => comp_attestationConfidence v a)) <|
    compF_nil)) ?_
  simp [Place.Needs, ]

theorem comp_attestation (v : Int) (x : Attestation) : CompC v (.place .attestations) J.attestation x (Attestation.Complete v x) := by
  refine CompC.congr (comp_struct (
    compF_plain (some .str) rfl (cf_plain rfl) <|
    compF_plain (some .str) rfl (cf_plain rfl) <|
    compF_plain (some (.list (.place .attestationMap))) rfl (cf_list_true (fun a _ => comp_attestationMap v a)) <|
    compF_field (some (.place .signature)) rfl (cf_opt (fun a _ => comp_jsfSignature v a)) <|
    compF_nil)) ?_
  simp [Place.Needs, Attestation.Complete, Attestation.toP]

theorem comp_composition (v : Int) (x : Composition) : CompC v (.place .compositions) J.composition x (Composition.Complete v x) := by
  refine CompC.congr (comp_struct (
    compF_plain (some (.since SpecVersion1_5 .str)) rfl (cf_plain rfl) <|
    compF_plain (some .str) rfl (cf_plain rfl) <|
    compF_plain (some (.list .str)) rfl (cf_plain rfl) <|
    compF_plain (some (.list .str)) rfl (cf_plain rfl) <|
    compF_plain (some (.since SpecVersion1_5 (.list .str))) rfl (cf_plain rfl) <|
    compF_field (some (.since SpecVersion1_4 (.place .signature))) rfl (cf_since (cf_opt (fun a _ => comp_jsfSignature v a))) <|
    compF_nil)) ?_
  simp [Place.Needs, Composition.Complete, J.compositionFields, JFields.Writes, Composition.toP, nem_string, nem_bomReference, nem_option, nem_pslice, and_assoc]

theorem comp_claim (v : Int) (x : Claim) : CompC v (.place .claims) J.claim x (Claim.Complete v x) := by
  refine CompC.congr (comp_struct (
    compF_plain (some .str) rfl (cf_plain rfl) <|
    compF_plain (some .str) rfl (cf_plain rfl) <|
    compF_plain (some .str) rfl (cf_plain rfl) <|
    compF_plain (some (.list .str)) rfl (cf_plain rfl) <|
    compF_plain (some .str) rfl (cf_plain rfl) <|
    compF_plain (some (.list .str)) rfl (cf_plain rfl) <|
    compF_plain (some (.list .str)) rfl (cf_plain rfl) <|
    compF_plain (some (.list (.place .externalReference))) rfl (cf_list_true (fun a _ => comp_externalReference v a)) <|
    compF_field (some (.place .signature)) rfl (cf_opt (fun a _ => comp_jsfSignature v a)) <|
    compF_nil)) ?_
  simp [Place.Needs, Claim.Complete, Claim.toP]

theorem comp_evidenceDataContents (v : Int) (x : EvidenceDataContents) : CompC v (.place .evidenceDataContents) J.evidenceDataContents x True := by
  refine CompC.congr (comp_struct (
    compF_plain (some (.place .attachment)) rfl (cf_opt_true (fun a _ => comp_attachedText v a)) <|
    compF_plain (some .str) rfl (cf_plain rfl) <|
    compF_nil)) ?_
  simp [Place.Needs, ]

theorem comp_evidenceData (v : Int) (x : EvidenceData) : CompC v (.place .evidenceData) J.evidenceData x (EvidenceData.Complete v x) := by
  refine CompC.congr (comp_struct (
    compF_plain (some .str) rfl (cf_plain rfl) <|
    compF_plain (some (.place .evidenceDataContents)) rfl (cf_opt_true (fun a _ => comp_evidenceDataContents v a)) <|
    compF_plain (some .str) rfl (cf_plain rfl) <|
    compF_plain (some (.list .str)) rfl (cf_plain rfl) <|
    compF_field (some (.place .dataGovernance)) rfl (cf_opt (fun a _ => comp_dataGovernance v a)) <|
    compF_nil)) ?_
  simp [Place.Needs, EvidenceData.Complete, EvidenceData.toP]

theorem comp_declarationEvidence (v : Int) (x : DeclarationEvidence) : CompC v (.place .evidence) J.declarationEvidence x (DeclarationEvidence.Complete v x) := by
  refine CompC.congr (comp_struct (
    compF_plain (some .str) rfl (cf_plain rfl) <|
    compF_plain (some .str) rfl (cf_plain rfl) <|
    compF_plain (some .str) rfl (cf_plain rfl) <|
    compF_field (some (.list (.place .evidenceData))) rfl (cf_list (fun a _ => comp_evidenceData v a)) <|
    compF_plain (some .str) rfl (cf_plain rfl) <|
    compF_plain (some .str) rfl (cf_plain rfl) <|
    compF_plain (some (.place .organizationalContact)) rfl (cf_opt_true (fun a _ => comp_organizationalContact v a)) <|
    compF_plain (some (.place .organizationalContact)) rfl (cf_opt_true (fun a _ => comp_organizationalContact v a)) <|
    compF_field (some (.place .signature)) rfl (cf_opt (fun a _ => comp_jsfSignature v a)) <|
    compF_nil)) ?_
  simp [Place.Needs, DeclarationEvidence.Complete, DeclarationEvidence.toP]

theorem comp_targets (v : Int) (x : Targets) : CompC v (.place .targets) J.targets x (Targets.Complete v x) := by
  refine CompC.congr (comp_struct (
    compF_plain (some (.list (.place .organizationalEntity))) rfl (cf_list_true (fun a _ => comp_organizationalEntity v a)) <|
    compF_field (some (.list (.place .component))) rfl (cf_list (fun a _ => comp_component v a)) <|
    compF_field (some (.list (.place .service))) rfl (cf_list (fun a _ => comp_service v a)) <|
    compF_nil)) ?_
  simp [Place.Needs, Targets.Complete, Targets.toP]

theorem comp_signatory (v : Int) (x : Signatory) : CompC v (.place .affirmationSignatories) J.signatory x (Signatory.Complete v x) := by
  refine CompC.congr (comp_struct (
    compF_plain (some .str) rfl (cf_plain rfl) <|
    compF_plain (some .str) rfl (cf_plain rfl) <|
    compF_field (some (.place .signature)) rfl (cf_opt (fun a _ => comp_jsfSignature v a)) <|
    compF_plain (some (.place .organizationalEntity)) rfl (cf_opt_true (fun a _ => comp_organizationalEntity v a)) <|
    compF_plain (some (.place .externalReference)) rfl (cf_opt_true (fun a _ => comp_externalReference v a)) <|
    compF_nil)) ?_
  simp [Place.Needs, Signatory.Complete, J.signatoryFields, JFields.Writes, Signatory.toP, nem_string, nem_bomReference, nem_option, nem_pslice, and_assoc]

theorem comp_affirmation (v : Int) (x : Affirmation) : CompC v (.place .affirmation) J.affirmation x (Affirmation.Complete v x) := by
  refine CompC.congr (comp_struct (
    compF_plain (some .str) rfl (cf_plain rfl) <|
    compF_field (some (.list (.place .affirmationSignatories))) rfl (cf_list (fun a _ => comp_signatory v a)) <|
    compF_field (some (.place .signature)) rfl (cf_opt (fun a _ => comp_jsfSignature v a)) <|
    compF_nil)) ?_
  simp [Place.Needs, Affirmation.Complete, Affirmation.toP]

theorem comp_declarations (v : Int) (x : Declarations) : CompC v (.place .bomDeclarations) J.declarations x (Declarations.Complete v x) := by
  refine CompC.congr (comp_struct (
    compF_plain (some (.list (.place .assessors))) rfl (cf_list_true (fun a _ => comp_assessor v a)) <|
    compF_field (some (.list (.place .attestations))) rfl (cf_list (fun a _ => comp_attestation v a)) <|
    compF_field (some (.list (.place .claims))) rfl (cf_list (fun a _ => comp_claim v a)) <|
    compF_field (some (.list (.place .evidence))) rfl (cf_list (fun a _ => comp_declarationEvidence v a)) <|
    compF_field (some (.place .targets)) rfl (cf_opt (fun a _ => comp_targets v a)) <|
    compF_field (some (.place .affirmation)) rfl (cf_opt (fun a _ => comp_affirmation v a)) <|
    compF_field (some (.place .signature)) rfl (cf_opt (fun a _ => comp_jsfSignature v a)) <|
    compF_nil)) ?_
  simp [Place.Needs, Declarations.Complete, Declarations.toP]

theorem comp_priorityApplication (v : Int) (x : PriorityApplication) : CompC v (.place .priorityApplication) J.priorityApplication x True := by
  refine CompC.congr (comp_struct (
    compF_plain (some .str) rfl (cf_plain rfl) <|
    compF_plain (some .str) rfl (cf_plain rfl) <|
    compF_plain (some .str) rfl (cf_plain rfl) <|
    compF_nil)) ?_
  simp [Place.Needs, J.priorityApplicationFields, JFields.Writes, PriorityApplication.toP, nem_string, nem_bomReference, nem_option, nem_pslice, and_assoc]

theorem comp_patent (v : Int) (x : Patent) : CompC v (.place .patentOrFamily) J.patent x True := by
  refine CompC.congr (comp_struct (
    compF_plain (some .str) rfl (cf_plain rfl) <|
    compF_plain (some .str) rfl (cf_plain rfl) <|
    compF_plain (some .str) rfl (cf_plain rfl) <|
    compF_plain (some .str) rfl (cf_plain rfl) <|
    compF_plain (some (.place .priorityApplication)) rfl (cf_opt_true (fun a _ => comp_priorityApplication v a)) <|
    compF_plain (some .str) rfl (cf_plain rfl) <|
    compF_plain (some .str) rfl (cf_plain rfl) <|
    compF_plain (some .str) rfl (cf_plain rfl) <|
    compF_plain (some .str) rfl (cf_plain rfl) <|
    compF_plain (some .str) rfl (cf_plain rfl) <|
    compF_plain (some .str) rfl (cf_plain rfl) <|
    compF_plain (some .str) rfl (cf_plain rfl) <|
    compF_plain (some (.list (.place .patentAssignee))) rfl (cf_list_true (fun a _ => comp_organizationalEntityOrContact_patentAssignee v a)) <|
    compF_plain (some (.list (.place .externalReference))) rfl (cf_list_true (fun a _ => comp_externalReference v a)) <|
    compF_nil)) ?_
  simp [Place.Needs, J.patentFields, JFields.Writes, Patent.toP, nem_string, nem_bomReference, nem_option, nem_pslice, and_assoc]

theorem comp_patentFamily (v : Int) (x : PatentFamily) : CompC v (.place .patentOrFamily) J.patentFamily x True := by
  refine CompC.congr (comp_struct (
    compF_plain (some .str) rfl (cf_plain rfl) <|
    compF_plain (some .str) rfl (cf_plain rfl) <|
    compF_plain (some (.place .priorityApplication)) rfl (cf_opt_true (fun a _ => comp_priorityApplication v a)) <|
    compF_plain (some (.list .str)) rfl (cf_plain rfl) <|
    compF_plain (some (.list (.place .externalReference))) rfl (cf_list_true (fun a _ => comp_externalReference v a)) <|
    compF_nil)) ?_
  simp [Place.Needs, J.patentFamilyFields, JFields.Writes, PatentFamily.toP, nem_string, nem_bomReference, nem_option, nem_pslice, and_assoc]

theorem comp_patentChoice (v : Int) (x : PatentChoice) :
    CompC v (.place .patentOrFamily) J.patentChoice x (x.Complete v) := by
  intro j hj
  obtain ⟨a, b⟩ := x
  cases a <;> cases b <;> simp only [J.patentChoice] at hj
  · simp only [Option.some.injEq] at hj; subst hj; simp [required_place, PatentChoice.Complete, Place.Needs]
  · simp [PatentChoice.Complete, comp_patentFamily v _ j hj]
  · simp [PatentChoice.Complete, comp_patent v _ j hj]
  · simp [PatentChoice.Complete, comp_patent v _ j hj]


theorem comp_standardRequirement (v : Int) (x : StandardRequirement) : CompC v (.place .standardRequirements) J.standardRequirement x True := by
  refine CompC.congr (comp_struct (
    compF_plain (some .str) rfl (cf_plain rfl) <|
    compF_plain (some .str) rfl (cf_plain rfl) <|
    compF_plain (some .str) rfl (cf_plain rfl) <|
    compF_plain (some .str) rfl (cf_plain rfl) <|
    compF_plain (some (.list .str)) rfl (cf_plain rfl) <|
    compF_plain (some (.list .str)) rfl (cf_plain rfl) <|
    compF_plain (some .str) rfl (cf_plain rfl) <|
    compF_plain (some (.list (.place .property))) rfl (cf_list_true (fun a _ => comp_property v a)) <|
    compF_plain (some (.list (.place .externalReference))) rfl (cf_list_true (fun a _ => comp_externalReference v a)) <|
    compF_nil)) ?_
  simp [Place.Needs, ]

theorem comp_standardLevel (v : Int) (x : StandardLevel) : CompC v (.place .standardLevels) J.standardLevel x True := by
  refine CompC.congr (comp_struct (
    compF_plain (some .str) rfl (cf_plain rfl) <|
    compF_plain (some .str) rfl (cf_plain rfl) <|
    compF_plain (some .str) rfl (cf_plain rfl) <|
    compF_plain (some .str) rfl (cf_plain rfl) <|
    compF_plain (some (.list .str)) rfl (cf_plain rfl) <|
    compF_nil)) ?_
  simp [Place.Needs, ]

theorem comp_standardDefinition (v : Int) (x : StandardDefinition) : CompC v (.place .standard) J.standardDefinition x (StandardDefinition.Complete v x) := by
  refine CompC.congr (comp_struct (
    compF_plain (some .str) rfl (cf_plain rfl) <|
    compF_plain (some .str) rfl (cf_plain rfl) <|
    compF_plain (some .str) rfl (cf_plain rfl) <|
    compF_plain (some .str) rfl (cf_plain rfl) <|
    compF_plain (some .str) rfl (cf_plain rfl) <|
    compF_plain (some (.list (.place .standardRequirements))) rfl (cf_list_true (fun a _ => comp_standardRequirement v a)) <|
    compF_plain (some (.list (.place .standardLevels))) rfl (cf_list_true (fun a _ => comp_standardLevel v a)) <|
    compF_plain (some (.list (.place .externalReference))) rfl (cf_list_true (fun a _ => comp_externalReference v a)) <|
    compF_field (some (.place .signature)) rfl (cf_opt (fun a _ => comp_jsfSignature v a)) <|
    compF_nil)) ?_
  simp [Place.Needs, StandardDefinition.Complete, StandardDefinition.toP]

theorem comp_definitions (v : Int) (x : Definitions) : CompC v (.place .bomDefinitions) J.definitions x (Definitions.Complete v x) := by
  refine CompC.congr (comp_struct (
    compF_field (some (.list (.place .standard))) rfl (cf_list (fun a _ => comp_standardDefinition v a)) <|
    compF_field (some (.since SpecVersion1_7 (.list (.place .patentOrFamily)))) rfl (cf_since (cf_list (fun a _ => comp_patentChoice v a))) <|
    compF_nil)) ?_
  simp [Place.Needs, Definitions.Complete, Definitions.toP]

theorem comp_dependency (v : Int) (x : Dependency) : CompC v (.place .dependency) J.dependency x True := by
  refine CompC.congr (comp_struct (
    compF_plain (some .str) rfl (cf_plain rfl) <|
    compF_plain (some (.list .str)) rfl (cf_plain rfl) <|
    compF_plain (some (.since SpecVersion1_6 (.list .str))) rfl (cf_plain rfl) <|
    compF_nil)) ?_
  simp [Place.Needs, J.dependencyFields, JFields.Writes, Dependency.toP, nem_string, nem_bomReference, nem_option, nem_pslice, and_assoc]

theorem comp_resourceReferenceChoice (v : Int) (x : ResourceReferenceChoice) : CompC v (.place .resourceReferenceChoice) J.resourceReferenceChoice x (ResourceReferenceChoice.Complete v x) := by
  refine CompC.congr (comp_struct (
    compF_plain (some .str) rfl (cf_plain rfl) <|
    compF_plain (some (.place .externalReference)) rfl (cf_opt_true (fun a _ => comp_externalReference v a)) <|
    compF_nil)) ?_
  simp [Place.Needs, ResourceReferenceChoice.Complete, J.resourceReferenceChoiceFields, JFields.Writes, ResourceReferenceChoice.toP, nem_string, nem_bomReference, nem_option, nem_pslice, and_assoc]

theorem comp_environmentVariableChoice (v : Int) (x : EnvironmentVariableChoice) :
    CompC v (.alt .str (.place .property)) J.environmentVariableChoice x (x.Complete v) := by
  intro j hj
  have hs : ∀ j, (if x.value ≠ "" then some (Json.str x.value) else some (.obj [])) = some j →
      (HasRequired v (.alt .str (.place .property)) j ↔ (SpecVersion1_6 ≤ v → x.value ≠ "")) := by
    intro j hj
    split at hj <;> rename_i hv <;> simp only [Option.some.injEq] at hj <;> subst hj <;> rw [required_alt]
    · exact iff_of_true ⟨.str _, required_place_str⟩ fun _ => hv
    · simp [required_place, Place.Needs, hv, HasRequired.str]
  simp only [J.environmentVariableChoice] at hj
  simp only [EnvironmentVariableChoice.Complete]
  split at hj
  · rename_i p hp
    have e : (∃ p ∈ x.property, p.name ≠ "" ∨ p.value ≠ "") ↔ ¬ p.isZero := by
      simp [hp, Property.isZero, Classical.or_iff_not_imp_left]
    rw [e]
    split at hj
    · rename_i hz
      have h := (comp_property v _ j hj).2 trivial
      simp [required_alt, h, hz, HasRequired.str]
    · rename_i hz
      rw [hs j hj]
      simp [hz]
  · rename_i hp
    rw [hs j hj]
    simp [hp]


theorem comp_parameter (v : Int) (x : Parameter) : CompC v (.place .parameter) J.parameter x True := by
  refine CompC.congr (comp_struct (
    compF_plain (some .str) rfl (cf_plain rfl) <|
    compF_plain (some .str) rfl (cf_plain rfl) <|
    compF_plain (some .str) rfl (cf_plain rfl) <|
    compF_nil)) ?_
  simp [Place.Needs, ]

theorem comp_taskInput (v : Int) (x : TaskInput) : CompC v (.place .inputType) J.taskInput x (TaskInput.Complete v x) := by
  refine CompC.congr (comp_struct (
    compF_field (some (.place .resourceReferenceChoice)) rfl (cf_opt (fun a _ => comp_resourceReferenceChoice v a)) <|
    compF_plain (some (.list (.place .parameter))) rfl (cf_list_true (fun a _ => comp_parameter v a)) <|
    compF_field (some (.list (.alt .str (.place .property)))) rfl (cf_list (fun a _ => comp_environmentVariableChoice v a)) <|
    compF_plain (some (.place .attachment)) rfl (cf_opt_true (fun a _ => comp_attachedText v a)) <|
    compF_field (some (.place .resourceReferenceChoice)) rfl (cf_opt (fun a _ => comp_resourceReferenceChoice v a)) <|
    compF_field (some (.place .resourceReferenceChoice)) rfl (cf_opt (fun a _ => comp_resourceReferenceChoice v a)) <|
    compF_plain (some (.list (.place .property))) rfl (cf_list_true (fun a _ => comp_property v a)) <|
    compF_nil)) ?_
  simp [Place.Needs, TaskInput.Complete, J.taskInputFields, JFields.Writes, TaskInput.toP, nem_string, nem_bomReference, nem_option, nem_pslice, and_assoc]

theorem comp_taskOutput (v : Int) (x : TaskOutput) : CompC v (.place .outputType) J.taskOutput x (TaskOutput.Complete v x) := by
  refine CompC.congr (comp_struct (
    compF_field (some (.place .resourceReferenceChoice)) rfl (cf_opt (fun a _ => comp_resourceReferenceChoice v a)) <|
    compF_plain none rfl (cf_none) <|
    compF_field (some (.list (.alt .str (.place .property)))) rfl (cf_list (fun a _ => comp_environmentVariableChoice v a)) <|
    compF_plain (some (.place .attachment)) rfl (cf_opt_true (fun a _ => comp_attachedText v a)) <|
    compF_plain (some .str) rfl (cf_plain rfl) <|
    compF_field (some (.place .resourceReferenceChoice)) rfl (cf_opt (fun a _ => comp_resourceReferenceChoice v a)) <|
    compF_field (some (.place .resourceReferenceChoice)) rfl (cf_opt (fun a _ => comp_resourceReferenceChoice v a)) <|
    compF_plain (some (.list (.place .property))) rfl (cf_list_true (fun a _ => comp_property v a)) <|
    compF_nil)) ?_
  simp [Place.Needs, TaskOutput.Complete, J.taskOutputFields, JFields.Writes, TaskOutput.toP, nem_string, nem_bomReference, nem_option, nem_pslice, and_assoc]

theorem comp_taskCommand (v : Int) (x : TaskCommand) : CompC v (.place .command) J.taskCommand x True := by
  refine CompC.congr (comp_struct (
    compF_plain (some .str) rfl (cf_plain rfl) <|
    compF_plain (some (.list (.place .property))) rfl (cf_list_true (fun a _ => comp_property v a)) <|
    compF_nil)) ?_
  simp [Place.Needs, ]

theorem comp_taskStep (v : Int) (x : TaskStep) : CompC v (.place .step) J.taskStep x True := by
  refine CompC.congr (comp_struct (
    compF_plain (some .str) rfl (cf_plain rfl) <|
    compF_plain (some .str) rfl (cf_plain rfl) <|
    compF_plain (some (.list (.place .command))) rfl (cf_list_true (fun a _ => comp_taskCommand v a)) <|
    compF_plain (some (.list (.place .property))) rfl (cf_list_true (fun a _ => comp_property v a)) <|
    compF_nil)) ?_
  simp [Place.Needs, ]

theorem comp_event (v : Int) (x : Event) : CompC v (.place .event) J.event x (Event.Complete v x) := by
  refine CompC.congr (comp_struct (
    compF_plain (some .str) rfl (cf_plain rfl) <|
    compF_plain (some .str) rfl (cf_plain rfl) <|
    compF_plain (some .str) rfl (cf_plain rfl) <|
    compF_plain (some (.place .attachment)) rfl (cf_opt_true (fun a _ => comp_attachedText v a)) <|
    compF_field (some (.place .resourceReferenceChoice)) rfl (cf_opt (fun a _ => comp_resourceReferenceChoice v a)) <|
    compF_field (some (.place .resourceReferenceChoice)) rfl (cf_opt (fun a _ => comp_resourceReferenceChoice v a)) <|
    compF_plain (some (.list (.place .property))) rfl (cf_list_true (fun a _ => comp_property v a)) <|
    compF_nil)) ?_
  simp [Place.Needs, Event.Complete, Event.toP]

theorem comp_taskTriggerCondition (v : Int) (x : TaskTriggerCondition) : CompC v (.place .condition) J.taskTriggerCondition x True := by
  refine CompC.congr (comp_struct (
    compF_plain (some .str) rfl (cf_plain rfl) <|
    compF_plain (some .str) rfl (cf_plain rfl) <|
    compF_plain (some (.list (.place .property))) rfl (cf_list_true (fun a _ => comp_property v a)) <|
    compF_nil)) ?_
  simp [Place.Needs, ]

theorem comp_taskTrigger (v : Int) (x : TaskTrigger) : CompC v (.place .trigger) J.taskTrigger x (TaskTrigger.Complete v x) := by
  refine CompC.congr (comp_struct (
    compF_plain (some .str) rfl (cf_plain rfl) <|
    compF_plain (some .str) rfl (cf_plain rfl) <|
    compF_plain (some .str) rfl (cf_plain rfl) <|
    compF_plain (some .str) rfl (cf_plain rfl) <|
    compF_field (some (.list (.place .resourceReferenceChoice))) rfl (cf_list (fun a _ => comp_resourceReferenceChoice v a)) <|
    compF_plain (some .str) rfl (cf_plain rfl) <|
    compF_field (some (.place .event)) rfl (cf_opt (fun a _ => comp_event v a)) <|
    compF_plain (some (.list (.place .condition))) rfl (cf_list_true (fun a _ => comp_taskTriggerCondition v a)) <|
    compF_plain (some .str) rfl (cf_plain rfl) <|
    compF_field (some (.list (.place .inputType))) rfl (cf_list (fun a _ => comp_taskInput v a)) <|
    compF_field (some (.list (.place .outputType))) rfl (cf_list (fun a _ => comp_taskOutput v a)) <|
    compF_plain (some (.list (.place .property))) rfl (cf_list_true (fun a _ => comp_property v a)) <|
    compF_nil)) ?_
  simp [Place.Needs, TaskTrigger.Complete, J.taskTriggerFields, JFields.Writes, TaskTrigger.toP, nem_string, nem_bomReference, nem_option, nem_pslice, and_assoc]

theorem comp_volume (v : Int) (x : Volume) : CompC v (.place .volume) J.volume x True := by
  refine CompC.congr (comp_struct (
    compF_plain (some .str) rfl (cf_plain rfl) <|
    compF_plain (some .str) rfl (cf_plain rfl) <|
    compF_plain (some .str) rfl (cf_plain rfl) <|
    compF_plain (some .str) rfl (cf_plain rfl) <|
    compF_plain (some .str) rfl (cf_plain rfl) <|
    compF_plain (some .bool) rfl (cf_plain rfl) <|
    compF_plain (some .bool) rfl (cf_plain rfl) <|
    compF_plain (some (.list (.place .property))) rfl (cf_list_true (fun a _ => comp_property v a)) <|
    compF_nil)) ?_
  simp [Place.Needs, ]

theorem comp_taskWorkspace (v : Int) (x : TaskWorkspace) : CompC v (.place .workspace) J.taskWorkspace x (TaskWorkspace.Complete v x) := by
  refine CompC.congr (comp_struct (
    compF_plain (some .str) rfl (cf_plain rfl) <|
    compF_plain (some .str) rfl (cf_plain rfl) <|
    compF_plain (some .str) rfl (cf_plain rfl) <|
    compF_plain (some (.list .str)) rfl (cf_plain rfl) <|
    compF_plain (some .str) rfl (cf_plain rfl) <|
    compF_field (some (.list (.place .resourceReferenceChoice))) rfl (cf_list (fun a _ => comp_resourceReferenceChoice v a)) <|
    compF_plain (some .str) rfl (cf_plain rfl) <|
    compF_plain (some .str) rfl (cf_plain rfl) <|
    compF_plain (some .str) rfl (cf_plain rfl) <|
    compF_plain (some .str) rfl (cf_plain rfl) <|
    compF_plain (some (.place .volume)) rfl (cf_opt_true (fun a _ => comp_volume v a)) <|
    compF_plain (some (.list (.place .property))) rfl (cf_list_true (fun a _ => comp_property v a)) <|
    compF_nil)) ?_
  simp [Place.Needs, TaskWorkspace.Complete, J.taskWorkspaceFields, JFields.Writes, TaskWorkspace.toP, nem_string, nem_bomReference, nem_option, nem_pslice, and_assoc]

theorem comp_task (v : Int) (x : Task) : CompC v (.place .task) J.task x (Task.Complete v x) := by
  refine CompC.congr (comp_struct (
    compF_plain (some .str) rfl (cf_plain rfl) <|
    compF_plain (some .str) rfl (cf_plain rfl) <|
    compF_plain (some .str) rfl (cf_plain rfl) <|
    compF_plain (some .str) rfl (cf_plain rfl) <|
    compF_plain (some (.list (.place .property))) rfl (cf_list_true (fun a _ => comp_property v a)) <|
    compF_field (some (.list (.place .resourceReferenceChoice))) rfl (cf_list (fun a _ => comp_resourceReferenceChoice v a)) <|
    compF_plain (some (.list .str)) rfl (cf_plain rfl) <|
    compF_field (some (.place .trigger)) rfl (cf_opt (fun a _ => comp_taskTrigger v a)) <|
    compF_plain (some (.list (.place .step))) rfl (cf_list_true (fun a _ => comp_taskStep v a)) <|
    compF_field (some (.list (.place .inputType))) rfl (cf_list (fun a _ => comp_taskInput v a)) <|
    compF_field (some (.list (.place .outputType))) rfl (cf_list (fun a _ => comp_taskOutput v a)) <|
    compF_plain (some .str) rfl (cf_plain rfl) <|
    compF_plain (some .str) rfl (cf_plain rfl) <|
    compF_field (some (.list (.place .workspace))) rfl (cf_list (fun a _ => comp_taskWorkspace v a)) <|
    compF_plain (some (.list (.place .dependency))) rfl (cf_list_true (fun a _ => comp_dependency v a)) <|
    compF_nil)) ?_
  simp [Place.Needs, Task.Complete, J.taskFields, JFields.Writes, Task.toP, nem_string, nem_bomReference, nem_option, nem_pslice, and_assoc]

theorem comp_workflow (v : Int) (x : Workflow) : CompC v (.place .workflow) J.workflow x (Workflow.Complete v x) := by
  refine CompC.congr (comp_struct (
    compF_plain (some .str) rfl (cf_plain rfl) <|
    compF_plain (some .str) rfl (cf_plain rfl) <|
    compF_plain (some .str) rfl (cf_plain rfl) <|
    compF_plain (some .str) rfl (cf_plain rfl) <|
    compF_field (some (.list (.place .resourceReferenceChoice))) rfl (cf_list (fun a _ => comp_resourceReferenceChoice v a)) <|
    compF_field (some (.list (.place .task))) rfl (cf_list (fun a _ => comp_task v a)) <|
    compF_plain (some (.list (.place .dependency))) rfl (cf_list_true (fun a _ => comp_dependency v a)) <|
    compF_plain (some (.list .str)) rfl (cf_plain rfl) <|
    compF_field (some (.place .trigger)) rfl (cf_opt (fun a _ => comp_taskTrigger v a)) <|
    compF_plain (some (.list (.place .step))) rfl (cf_list_true (fun a _ => comp_taskStep v a)) <|
    compF_field (some (.list (.place .inputType))) rfl (cf_list (fun a _ => comp_taskInput v a)) <|
    compF_field (some (.list (.place .outputType))) rfl (cf_list (fun a _ => comp_taskOutput v a)) <|
    compF_plain (some .str) rfl (cf_plain rfl) <|
    compF_plain (some .str) rfl (cf_plain rfl) <|
    compF_field (some (.list (.place .workspace))) rfl (cf_list (fun a _ => comp_taskWorkspace v a)) <|
    compF_plain (some (.list (.place .dependency))) rfl (cf_list_true (fun a _ => comp_dependency v a)) <|
    compF_plain (some (.list (.place .property))) rfl (cf_list_true (fun a _ => comp_property v a)) <|
    compF_nil)) ?_
  simp [Place.Needs, Workflow.Complete, J.workflowFields, JFields.Writes, Workflow.toP, nem_string, nem_bomReference, nem_option, nem_pslice, and_assoc]

theorem comp_formula (v : Int) (x : Formula) : CompC v (.place .formula) J.formula x (Formula.Complete v x) := by
  refine CompC.congr (comp_struct (
    compF_plain (some .str) rfl (cf_plain rfl) <|
    compF_field (some (.list (.place .component))) rfl (cf_list (fun a _ => comp_component v a)) <|
    compF_field (some (.list (.place .service))) rfl (cf_list (fun a _ => comp_service v a)) <|
    compF_field (some (.list (.place .workflow))) rfl (cf_list (fun a _ => comp_workflow v a)) <|
    compF_plain (some (.list (.place .property))) rfl (cf_list_true (fun a _ => comp_property v a)) <|
    compF_nil)) ?_
  simp [Place.Needs, Formula.Complete, Formula.toP]

theorem comp_lifecycle (v : Int) (x : Lifecycle) : CompC v (.place .metadataLifecycles) J.lifecycle x (Lifecycle.Complete v x) := by
  refine CompC.congr (comp_struct (
    compF_plain (some .str) rfl (cf_plain rfl) <|
    compF_plain (some .str) rfl (cf_plain rfl) <|
    compF_plain (some .str) rfl (cf_plain rfl) <|
    compF_nil)) ?_
  simp [Place.Needs, Lifecycle.Complete, J.lifecycleFields, JFields.Writes, Lifecycle.toP, nem_string, nem_bomReference, nem_option, nem_pslice, and_assoc]

theorem comp_tool (v : Int) (x : Tool) : CompC v (.place .tool) J.tool x True := by
  refine CompC.congr (comp_struct (
    compF_plain (some .str) rfl (cf_plain rfl) <|
    compF_plain (some .str) rfl (cf_plain rfl) <|
    compF_plain (some .str) rfl (cf_plain rfl) <|
    compF_plain (some (.list (.place .hash))) rfl (cf_list_true (fun a _ => comp_hash v a)) <|
    compF_plain (some (.since SpecVersion1_4 (.list (.place .externalReference)))) rfl (cf_since (cf_list_true (fun a _ => comp_externalReference v a))) <|
    compF_nil)) ?_
  simp [Place.Needs, ]

theorem comp_toolsChoice (v : Int) (x : ToolsChoice) :
    CompC v (.alt (.list (.place .tool)) (.since SpecVersion1_5 (.place .tools))) J.toolsChoice x (x.Complete v) := by
  intro j hj
  obtain ⟨t, c, s⟩ := x
  simp only [J.toolsChoice] at hj
  simp only [ToolsChoice.Complete]
  rw [required_alt, required_since]
  split at hj
  · cases hj
  · rename_i h1
    split at hj
    · rename_i ht
      have hcs : c = .nil ∧ s = .nil := by
        cases t <;> cases c <;> cases s <;> simp_all [PSlice.isNil]
      have h := comp_list (fun a _ => comp_tool v a) j hj
      have hn : HasRequired v (.place .tools) j := by
        cases t with
        | list xs =>
          simp only [JCodec.pslice, Option.map_eq_some_iff] at hj
          obtain ⟨js, _, rfl⟩ := hj; exact required_place_arr
        | _ =>
          simp only [JCodec.pslice, Option.some.injEq] at hj
          subst hj; exact required_null _
      rw [h]
      simp [hn, hcs.1, hcs.2, PSlice.elems]
    · split at hj
      · obtain ⟨ms, rfl⟩ := struct_is_obj hj
        have h : CompC v (.place .tools) J.toolsChoiceJSON (c, s) (True ∧
            (∀ y ∈ c.elems, Component.Complete v y) ∧ (∀ y ∈ s.elems, Service.Complete v y) ∧ True) :=
          comp_struct (compF_field (some (.list (.place .component))) rfl (cf_list (fun a _ => comp_component v a)) <|
            compF_field (some (.list (.place .service))) rfl (cf_list (fun a _ => comp_service v a)) compF_nil)
        rw [h _ hj]
        simp [required_list_obj]
      · cases hj


theorem comp_distributionConstraints (v : Int) (x : DistributionConstraints) : CompC v (.place .metadataDistributionConstraints) J.distributionConstraints x True := by
  refine CompC.congr (comp_struct (
    compF_plain (some .str) rfl (cf_plain rfl) <|
    compF_nil)) ?_
  simp [Place.Needs, ]

theorem comp_metadata (v : Int) (x : Metadata) : CompC v (.place .metadata) J.metadata x (Metadata.Complete v x) := by
  refine CompC.congr (comp_struct (
    compF_plain (some .str) rfl (cf_plain rfl) <|
    compF_field (some (.since SpecVersion1_5 (.list (.place .metadataLifecycles)))) rfl (cf_since (cf_list (fun a _ => comp_lifecycle v a))) <|
    compF_field (some (.alt (.list (.place .tool)) (.since SpecVersion1_5 (.place .tools)))) rfl (cf_opt (fun a _ => comp_toolsChoice v a)) <|
    compF_plain (some (.list (.place .organizationalContact))) rfl (cf_list_true (fun a _ => comp_organizationalContact v a)) <|
    compF_field (some (.place .component)) rfl (cf_opt (fun a _ => comp_component v a)) <|
    compF_plain (some (.place .organizationalEntity)) rfl (cf_opt_true (fun a _ => comp_organizationalEntity v a)) <|
    compF_plain (some (.since SpecVersion1_6 (.place .organizationalEntity))) rfl (cf_since (cf_opt_true (fun a _ => comp_organizationalEntity v a))) <|
    compF_plain (some (.place .organizationalEntity)) rfl (cf_opt_true (fun a _ => comp_organizationalEntity v a)) <|
    compF_field (some (.since SpecVersion1_3 (.list (.place .licenseChoice)))) rfl (cf_since (cf_list (fun a _ => comp_licenseChoice v a))) <|
    compF_plain (some (.since SpecVersion1_3 (.list (.place .property)))) rfl (cf_since (cf_list_true (fun a _ => comp_property v a))) <|
    compF_plain (some (.since SpecVersion1_7 (.place .metadataDistributionConstraints))) rfl (cf_since (cf_opt_true (fun a _ => comp_distributionConstraints v a))) <|
    compF_nil)) ?_
  simp [Place.Needs, Metadata.Complete, Metadata.toP]

theorem comp_credits (v : Int) (x : Credits) : CompC v (.place .vulnerabilityCredits) J.credits x True := by
  refine CompC.congr (comp_struct (
    compF_plain (some (.list (.place .organizationalEntity))) rfl (cf_list_true (fun a _ => comp_organizationalEntity v a)) <|
    compF_plain (some (.list (.place .organizationalContact))) rfl (cf_list_true (fun a _ => comp_organizationalContact v a)) <|
    compF_nil)) ?_
  simp [Place.Needs, ]

theorem comp_proofOfConcept (v : Int) (x : ProofOfConcept) : CompC v (.place .vulnerabilityProofOfConcept) J.proofOfConcept x True := by
  refine CompC.congr (comp_struct (
    compF_plain (some .str) rfl (cf_plain rfl) <|
    compF_plain (some .str) rfl (cf_plain rfl) <|
    compF_plain (some (.list (.place .attachment))) rfl (cf_list_true (fun a _ => comp_attachedText v a)) <|
    compF_nil)) ?_
  simp [Place.Needs, ]

theorem comp_vulnerabilityAnalysis (v : Int) (x : VulnerabilityAnalysis) : CompC v (.place .vulnerabilityAnalysis) J.vulnerabilityAnalysis x True := by
  refine CompC.congr (comp_struct (
    compF_plain (some .str) rfl (cf_plain rfl) <|
    compF_plain (some .str) rfl (cf_plain rfl) <|
    compF_plain (some (.list .str)) rfl (cf_plain rfl) <|
    compF_plain (some .str) rfl (cf_plain rfl) <|
    compF_plain (some (.since SpecVersion1_5 .str)) rfl (cf_plain rfl) <|
    compF_plain (some (.since SpecVersion1_5 .str)) rfl (cf_plain rfl) <|
    compF_nil)) ?_
  simp [Place.Needs, ]

theorem comp_vulnerabilityRating (v : Int) (x : VulnerabilityRating) : CompC v (.place .rating) J.vulnerabilityRating x True := by
  refine CompC.congr (comp_struct (
    compF_plain (some (.place .vulnerabilitySource)) rfl (cf_opt_true (fun a _ => comp_source v a)) <|
    compF_plain (some .num) rfl (cf_plain rfl) <|
    compF_plain (some .str) rfl (cf_plain rfl) <|
    compF_plain (some .str) rfl (cf_plain rfl) <|
    compF_plain (some .str) rfl (cf_plain rfl) <|
    compF_plain (some .str) rfl (cf_plain rfl) <|
    compF_nil)) ?_
  simp [Place.Needs, ]

theorem comp_vulnerabilityReference (v : Int) (x : VulnerabilityReference) : CompC v (.place .vulnerabilityReferences) J.vulnerabilityReference x (VulnerabilityReference.Complete v x) := by
  refine CompC.congr (comp_struct (
    compF_plain (some .str) rfl (cf_plain rfl) <|
    compF_plain (some (.place .vulnerabilitySource)) rfl (cf_opt_true (fun a _ => comp_source v a)) <|
    compF_nil)) ?_
  simp [Place.Needs, VulnerabilityReference.Complete, J.vulnerabilityReferenceFields, JFields.Writes, VulnerabilityReference.toP, nem_string, nem_bomReference, nem_option, nem_pslice, and_assoc]

theorem comp_vulnerability (v : Int) (x : Vulnerability) : CompC v (.place .vulnerability) J.vulnerability x (Vulnerability.Complete v x) := by
  refine CompC.congr (comp_struct (
    compF_plain (some .str) rfl (cf_plain rfl) <|
    compF_plain (some .str) rfl (cf_plain rfl) <|
    compF_plain (some (.place .vulnerabilitySource)) rfl (cf_opt_true (fun a _ => comp_source v a)) <|
    compF_field (some (.list (.place .vulnerabilityReferences))) rfl (cf_list (fun a _ => comp_vulnerabilityReference v a)) <|
    compF_plain (some (.list (.place .rating))) rfl (cf_list_true (fun a _ => comp_vulnerabilityRating v a)) <|
    compF_plain (some (.list .int)) rfl (cf_plain rfl) <|
    compF_plain (some .str) rfl (cf_plain rfl) <|
    compF_plain (some .str) rfl (cf_plain rfl) <|
    compF_plain (some .str) rfl (cf_plain rfl) <|
    compF_plain (some (.since SpecVersion1_5 .str)) rfl (cf_plain rfl) <|
    compF_plain (some (.since SpecVersion1_5 (.place .vulnerabilityProofOfConcept))) rfl (cf_since (cf_opt_true (fun a _ => comp_proofOfConcept v a))) <|
    compF_plain (some (.list (.place .advisory))) rfl (cf_list_true (fun a _ => comp_advisory v a)) <|
    compF_plain (some .str) rfl (cf_plain rfl) <|
    compF_plain (some .str) rfl (cf_plain rfl) <|
    compF_plain (some .str) rfl (cf_plain rfl) <|
    compF_plain (some (.since SpecVersion1_5 .str)) rfl (cf_plain rfl) <|
    compF_plain (some (.place .vulnerabilityCredits)) rfl (cf_opt_true (fun a _ => comp_credits v a)) <|
    compF_field (some (.alt (.list (.place .tool)) (.since SpecVersion1_5 (.place .tools)))) rfl (cf_opt (fun a _ => comp_toolsChoice v a)) <|
    compF_plain (some (.place .vulnerabilityAnalysis)) rfl (cf_opt_true (fun a _ => comp_vulnerabilityAnalysis v a)) <|
    compF_field (some (.list (.place .vulnerabilityAffects))) rfl (cf_list (fun a _ => comp_affects v a)) <|
    compF_plain (some (.list (.place .property))) rfl (cf_list_true (fun a _ => comp_property v a)) <|
    compF_nil)) ?_
  simp [Place.Needs, Vulnerability.Complete, Vulnerability.toP]

theorem comp_citation (v : Int) (x : Citation) : CompC v (.place .citation) J.citation x (Citation.Complete v x) := by
  refine CompC.congr (comp_struct (
    compF_plain (some .str) rfl (cf_plain rfl) <|
    compF_plain (some (.list .str)) rfl (cf_plain rfl) <|
    compF_plain (some (.list .str)) rfl (cf_plain rfl) <|
    compF_plain (some .str) rfl (cf_plain rfl) <|
    compF_plain (some .str) rfl (cf_plain rfl) <|
    compF_plain (some .str) rfl (cf_plain rfl) <|
    compF_plain (some .str) rfl (cf_plain rfl) <|
    compF_field (some (.place .signature)) rfl (cf_opt (fun a _ => comp_jsfSignature v a)) <|
    compF_nil)) ?_
  simp [Place.Needs, Citation.Complete, J.citationFields, JFields.Writes, Citation.toP, nem_string, nem_bomReference, nem_option, nem_pslice, and_assoc]

theorem comp_bom (v : Int) (x : BOM) : CompC v (.place .bom) J.bom x (BOM.Complete v x) := by
  refine CompC.congr (comp_struct (
    compF_skip <|
    compF_skip <|
    compF_plain (some .str) rfl (cf_plain rfl) <|
    compF_plain (some .str) rfl (cf_plain rfl) <|
    compF_plain (some .str) rfl (cf_plain rfl) <|
    compF_plain (some .str) rfl (cf_plain rfl) <|
    compF_plain (some .int) rfl (cf_plain rfl) <|
    compF_field (some (.place .metadata)) rfl (cf_opt (fun a _ => comp_metadata v a)) <|
    compF_field (some (.list (.place .component))) rfl (cf_list (fun a _ => comp_component v a)) <|
    compF_field (some (.list (.place .service))) rfl (cf_list (fun a _ => comp_service v a)) <|
    compF_plain (some (.list (.place .externalReference))) rfl (cf_list_true (fun a _ => comp_externalReference v a)) <|
    compF_plain (some (.list (.place .dependency))) rfl (cf_list_true (fun a _ => comp_dependency v a)) <|
    compF_field (some (.since SpecVersion1_3 (.list (.place .compositions)))) rfl (cf_since (cf_list (fun a _ => comp_composition v a))) <|
    compF_plain (some (.since SpecVersion1_5 (.list (.place .property)))) rfl (cf_since (cf_list_true (fun a _ => comp_property v a))) <|
    compF_field (some (.since SpecVersion1_4 (.list (.place .vulnerability)))) rfl (cf_since (cf_list (fun a _ => comp_vulnerability v a))) <|
    compF_field (some (.since SpecVersion1_5 (.list (.place .annotations)))) rfl (cf_since (cf_list (fun a _ => comp_annotation v a))) <|
    compF_field (some (.since SpecVersion1_5 (.list (.place .formula)))) rfl (cf_since (cf_list (fun a _ => comp_formula v a))) <|
    compF_field (some (.since SpecVersion1_6 (.place .bomDeclarations))) rfl (cf_since (cf_opt (fun a _ => comp_declarations v a))) <|
    compF_field (some (.since SpecVersion1_6 (.place .bomDefinitions))) rfl (cf_since (cf_opt (fun a _ => comp_definitions v a))) <|
    compF_field (some (.since SpecVersion1_7 (.list (.place .citation)))) rfl (cf_since (cf_list (fun a _ => comp_citation v a))) <|
    compF_field (some (.since SpecVersion1_4 (.place .signature))) rfl (cf_since (cf_opt (fun a _ => comp_jsfSignature v a))) <|
    compF_nil)) ?_
  simp [Place.Needs, BOM.Complete, J.bomFields, JFields.Writes, BOM.toP, nem_string, nem_bomReference, nem_option, nem_pslice, and_assoc]

end Verif
