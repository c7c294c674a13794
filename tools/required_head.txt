import Verif.Spec.JsonRequired
import Verif.Json.StructLaws

/-!
# Which values are written with all required members

GENERATED by `tools/gen_jrequired.py`; do not edit by hand.  `CompC v s c x Q`: when the codec `c` writes `x`, what
it writes has the members required at version `v`, where `s` is declared, exactly if `Q`.  For every type, at the place
the schema has for it, `Q` is `T.Complete v`.
-/

namespace Verif

set_option linter.unusedSectionVars false
set_option linter.unusedSimpArgs false

theorem required_list {v : Int} {s : Sch} {js : List Json} :
    HasRequired v (.list s) (.arr js) ↔ ∀ j ∈ js, HasRequired v s j := by
  refine ⟨fun h => ?_, .list⟩
  cases h with
  | list h => exact h
  | noList h => exact absurd rfl (h js)
theorem required_alt {v : Int} {s t : Sch} {j : Json} :
    HasRequired v (.alt s t) j ↔ HasRequired v s j ∧ HasRequired v t j :=
  ⟨fun h => by cases h; constructor <;> assumption, fun h => .alt h.1 h.2⟩
theorem required_since {v n : Int} {s : Sch} {j : Json} : HasRequired v (.since n s) j ↔ HasRequired v s j :=
  ⟨fun h => by cases h; assumption, .since⟩
theorem required_place {v : Int} {p : Place} {ms : List (String × Json)} :
    HasRequired v (.place p) (.obj ms) ↔ p.Needs v (fun k => ∃ m ∈ ms, m.1 = k) ∧
      ∀ m ∈ ms, ∀ s, p.members.lookup m.1 = some s → HasRequired v s m.2 := by
  refine ⟨fun h => ?_, fun h => .place h.1 h.2⟩
  cases h with
  | place h1 h2 => exact ⟨h1, h2⟩
  | noPlace h => exact absurd rfl (h ms)
theorem required_null {v : Int} : ∀ s : Sch, HasRequired v s .null
  | .str => .str _
  | .num => .num _
  | .int => .int _
  | .bool => .bool _
  | .list _ => .noList (by simp)
  | .place _ => .noPlace (by simp)
  | .alt s t => .alt (required_null s) (required_null t)
  | .since _ s => .since (required_null s)
theorem required_list_obj {v : Int} {s : Sch} {ms : List (String × Json)} : HasRequired v (.list s) (.obj ms) :=
  .noList (by simp)
theorem required_place_arr {v : Int} {p : Place} {js : List Json} : HasRequired v (.place p) (.arr js) :=
  .noPlace (by simp)
theorem required_place_str {v : Int} {p : Place} {t : String} : HasRequired v (.place p) (.str t) :=
  .noPlace (by simp)

/-- No objects are declared. -/
def Sch.plain : Sch → Bool
  | .str | .num | .int | .bool => true
  | .list s => s.plain
  | .place _ => false
  | .alt s t => s.plain && t.plain
  | .since _ s => s.plain

theorem required_plain {v : Int} : ∀ {s : Sch}, s.plain = true → ∀ j, HasRequired v s j
  | .str, _, j => .str j
  | .num, _, j => .num j
  | .int, _, j => .int j
  | .bool, _, j => .bool j
  | .list s, h, j => by
    have ih := required_plain (v := v) (s := s) h
    cases j with
    | arr js => exact .list fun j _ => ih j
    | _ => exact .noList (by simp)
  | .place _, h, _ => by cases h
  | .alt s t, h, j => by
    simp only [Sch.plain, Bool.and_eq_true] at h
    exact .alt (required_plain h.1 j) (required_plain h.2 j)
  | .since _ s, h, j => .since (required_plain (s := s) h j)

/-- The member is written. -/
def JFields.Writes : {β : Type} → JFields β → β → String → Prop
  | _, .nil, _, _ => False
  | _, .skip _ F, b, k => F.Writes b.2 k
  | _, .field n oe c F, b, k => n = k ∧ (oe = true → c.empty b.1 = false) ∨ F.Writes b.2 k

theorem has_iff : ∀ {β : Type} (F : JFields β) (b : β) {ms : List (String × Json)}, F.enc b = some ms →
    ∀ k, (∃ m ∈ ms, m.1 = k) ↔ F.Writes b k
  | _, .nil, b, ms, h, k => by
    simp only [JFields.enc, Option.some.injEq] at h
    subst h
    simp [JFields.Writes]
  | _, .skip _ F, b, ms, h, k => has_iff F b.2 h k
  | _, .field n oe c F, b, ms, h, k => by
    simp only [JFields.enc] at h
    by_cases he : (oe && c.empty b.1) = true
    · rw [if_pos he] at h
      rw [Bool.and_eq_true] at he
      rw [has_iff F b.2 h k]
      simp [JFields.Writes, he.1, he.2]
    · rw [if_neg he] at h
      have he' : oe = true → c.empty b.1 = false := by
        intro h1
        simpa [h1] using he
      cases hc : c.enc b.1 with
      | none => simp [hc] at h
      | some j =>
        simp only [hc, Option.map_eq_some_iff] at h
        obtain ⟨ms', hm, rfl⟩ := h
        have ih := has_iff F b.2 hm k
        simp only [JFields.Writes, List.mem_cons, exists_eq_or_imp, ih, eq_true he', and_true]

/-- When `c` writes `a`, what it writes has the required members exactly if `Q`. -/
def CompC {α : Type} (v : Int) (s : Sch) (c : JCodec α) (a : α) (Q : Prop) : Prop :=
  ∀ j, c.enc a = some j → (HasRequired v s j ↔ Q)

/-- When the fields are written, the value of every member has what it needs exactly if `Q`. -/
def CompF {β : Type} (v : Int) (p : Place) (F : JFields β) (b : β) (Q : Prop) : Prop :=
  ∀ ms, F.enc b = some ms → ((∀ m ∈ ms, ∀ s, p.members.lookup m.1 = some s → HasRequired v s m.2) ↔ Q)

/-- One field: it is dropped and `Q` holds, or what is written has what it needs exactly if `Q`. -/
def FieldComp {α : Type} (v : Int) (s : Option Sch) (oe : Bool) (c : JCodec α) (a : α) (Q : Prop) : Prop :=
  if oe && c.empty a then Q else ∀ j, c.enc a = some j → ((∀ t, s = some t → HasRequired v t j) ↔ Q)

theorem CompC.congr {α : Type} {v : Int} {s : Sch} {c : JCodec α} {a : α} {P Q : Prop} (h : CompC v s c a P)
    (e : P ↔ Q) : CompC v s c a Q := fun j hj => (h j hj).trans e

theorem compF_nil {v : Int} {p : Place} {b : Unit} : CompF v p .nil b True := by
  intro ms h
  simp only [JFields.enc, Option.some.injEq] at h
  subst h
  simp

theorem compF_skip {v : Int} {p : Place} {α β : Type} {z : α} {F : JFields β} {b : α × β} {Q : Prop}
    (h : CompF v p F b.2 Q) : CompF v p (.skip z F) b Q := h

theorem compF_field {v : Int} {p : Place} {α β : Type} {n : String} {oe : Bool} {c : JCodec α} {F : JFields β}
    {b : α × β} {P Q : Prop} (s : Option Sch) (hs : p.members.lookup n = s) (h1 : FieldComp v s oe c b.1 P)
    (h2 : CompF v p F b.2 Q) : CompF v p (.field n oe c F) b (P ∧ Q) := by
  intro ms h
  simp only [JFields.enc] at h
  simp only [FieldComp] at h1
  by_cases he : (oe && c.empty b.1) = true
  · rw [if_pos he] at h h1
    rw [h2 ms h]
    exact ⟨fun hq => ⟨h1, hq⟩, And.right⟩
  · rw [if_neg he] at h h1
    cases hc : c.enc b.1 with
    | none => simp [hc] at h
    | some j =>
      simp only [hc, Option.map_eq_some_iff] at h
      obtain ⟨ms', hm, rfl⟩ := h
      rw [← h1 j hc, ← h2 ms' hm]
      simp only [List.mem_cons, forall_eq_or_imp, hs]

theorem compF_plain {v : Int} {p : Place} {α β : Type} {n : String} {oe : Bool} {c : JCodec α} {F : JFields β}
    {b : α × β} {Q : Prop} (s : Option Sch) (hs : p.members.lookup n = s) (h1 : FieldComp v s oe c b.1 True)
    (h2 : CompF v p F b.2 Q) : CompF v p (.field n oe c F) b Q := by
  have := compF_field s hs h1 h2
  rwa [true_and] at this

theorem comp_struct {v : Int} {p : Place} {σ β : Type} {F : JFields β} {toP : σ → β} {ofP : β → σ} {x : σ}
    {Q : Prop} (h : CompF v p F (toP x) Q) :
    CompC v (.place p) (JCodec.struct F toP ofP) x (p.Needs v (F.Writes (toP x)) ∧ Q) := by
  intro j hj
  simp only [JCodec.struct, Option.map_eq_some_iff] at hj
  obtain ⟨ms, hm, rfl⟩ := hj
  have e : (fun k => ∃ m ∈ ms, m.1 = k) = F.Writes (toP x) := funext fun k => propext (has_iff F (toP x) hm k)
  rw [required_place, e, h ms hm]

theorem struct_is_obj {σ β : Type} {F : JFields β} {toP : σ → β} {ofP : β → σ} {x : σ} {j : Json}
    (h : (JCodec.struct F toP ofP).enc x = some j) : ∃ ms, j = .obj ms := by
  simp only [JCodec.struct, Option.map_eq_some_iff] at h
  obtain ⟨ms, _, rfl⟩ := h
  exact ⟨ms, rfl⟩

/-! ### Fields -/

theorem cf_none {v : Int} {α : Type} {oe : Bool} {c : JCodec α} {a : α} : FieldComp v none oe c a True := by
  simp [FieldComp]

theorem cf_plain {v : Int} {α : Type} {oe : Bool} {s : Sch} {c : JCodec α} {a : α} (h : s.plain = true) :
    FieldComp v (some s) oe c a True := by
  simp only [FieldComp]
  split
  · trivial
  · intro j _
    simp [required_plain h j]

theorem cf_since {v n : Int} {α : Type} {oe : Bool} {s : Sch} {c : JCodec α} {a : α} {P : Prop}
    (h : FieldComp v (some s) oe c a P) : FieldComp v (some (.since n s)) oe c a P := by
  simp only [FieldComp] at h ⊢
  split
  · rwa [if_pos (by assumption)] at h
  · rw [if_neg (by assumption)] at h
    intro j hj
    rw [← h j hj]
    simp [required_since]

theorem cf_val {v : Int} {σ β : Type} {oe : Bool} {s : Sch} {F : JFields β} {toP : σ → β} {ofP : β → σ} {x : σ}
    {P : Prop} (h : CompC v s (JCodec.struct F toP ofP) x P) :
    FieldComp v (some s) oe (JCodec.struct F toP ofP) x P := by
  simp only [FieldComp, JCodec.struct, Bool.and_false, Bool.false_eq_true, if_false]
  intro j hj
  simpa using h j hj

theorem cf_opt {v : Int} {α : Type} {oe : Bool} {s : Sch} {c : JCodec α} {o : Option α} {P : α → Prop}
    (h : ∀ a ∈ o, CompC v s c a (P a)) : FieldComp v (some s) oe (JCodec.option c) o (∀ a ∈ o, P a) := by
  cases o with
  | none =>
    simp only [FieldComp]
    split
    · simp
    · intro j hj
      simp only [JCodec.option, Option.some.injEq] at hj
      subst hj
      simp [required_null]
  | some a =>
    simp only [FieldComp, JCodec.option, Option.isNone_some, Bool.and_false, Bool.false_eq_true, if_false]
    intro j hj
    simpa using h a rfl j hj

theorem cf_opt_true {v : Int} {α : Type} {oe : Bool} {s : Sch} {c : JCodec α} {o : Option α}
    (h : ∀ a ∈ o, CompC v s c a True) : FieldComp v (some s) oe (JCodec.option c) o True := by
  have := cf_opt (oe := oe) (P := fun _ => True) h
  simpa using this

theorem compC_encList {v : Int} {α : Type} {s : Sch} {c : JCodec α} {P : α → Prop} : ∀ {xs : List α} {js : List Json},
    (∀ a ∈ xs, CompC v s c a (P a)) → JCodec.encList c xs = some js →
    ((∀ j ∈ js, HasRequired v s j) ↔ ∀ a ∈ xs, P a)
  | [], js, _, h => by
    simp only [JCodec.encList, Option.some.injEq] at h
    subst h
    simp
  | x :: xs, js, hx, h => by
    simp only [JCodec.encList] at h
    cases hc : c.enc x with
    | none => simp [hc] at h
    | some j =>
      simp only [hc, Option.map_eq_some_iff] at h
      obtain ⟨js', h', rfl⟩ := h
      have ih := compC_encList (fun a ha => hx a (List.mem_cons_of_mem _ ha)) h'
      simp only [List.mem_cons, forall_eq_or_imp, ih, hx x (by simp) j hc]

theorem comp_list {v : Int} {α : Type} {s : Sch} {c : JCodec α} {p : PSlice α} {P : α → Prop}
    (h : ∀ a ∈ p.elems, CompC v s c a (P a)) : CompC v (.list s) (JCodec.pslice c) p (∀ a ∈ p.elems, P a) := by
  intro j hj
  cases p with
  | nil =>
    simp only [JCodec.pslice, Option.some.injEq] at hj
    subst hj
    simp [required_null, PSlice.elems]
  | nilSlice =>
    simp only [JCodec.pslice, Option.some.injEq] at hj
    subst hj
    simp [required_null, PSlice.elems]
  | list xs =>
    simp only [JCodec.pslice, Option.map_eq_some_iff] at hj
    obtain ⟨js, h', rfl⟩ := hj
    simp only [PSlice.elems] at h ⊢
    rw [required_list, compC_encList h h']

theorem cf_list {v : Int} {α : Type} {oe : Bool} {s : Sch} {c : JCodec α} {p : PSlice α} {P : α → Prop}
    (h : ∀ a ∈ p.elems, CompC v s c a (P a)) :
    FieldComp v (some (.list s)) oe (JCodec.pslice c) p (∀ a ∈ p.elems, P a) := by
  simp only [FieldComp]
  split
  · rename_i he
    rw [Bool.and_eq_true] at he
    cases p <;> simp_all [JCodec.pslice, PSlice.isNil, PSlice.elems]
  · intro j hj
    simpa using comp_list h j hj

theorem cf_list_true {v : Int} {α : Type} {oe : Bool} {s : Sch} {c : JCodec α} {p : PSlice α}
    (h : ∀ a ∈ p.elems, CompC v s c a True) : FieldComp v (some (.list s)) oe (JCodec.pslice c) p True := by
  have := cf_list (oe := oe) (P := fun _ => True) h
  simpa using this

/-! ### Which fields are not left out -/

theorem nem_string {a : String} : JCodec.string.empty a = false ↔ a ≠ "" := by simp [JCodec.string]
theorem nem_bomReference {a : BOMReference} : J.bomReference.empty a = false ↔ a ≠ ⟨""⟩ := by
  cases a; simp [J.bomReference]
theorem nem_option {α : Type} {c : JCodec α} {o : Option α} : (JCodec.option c).empty o = false ↔ o ≠ none := by
  cases o <;> simp [JCodec.option]
theorem nem_pslice {α : Type} {c : JCodec α} {p : PSlice α} : (JCodec.pslice c).empty p = false ↔ p ≠ .nil := by
  cases p <;> simp [JCodec.pslice, PSlice.isNil]

variable [FloatIO]

theorem SameAt.compC {v : Int} {s : Sch} {α : Type} {C D : JCodec α} {a : α} {Q : Prop} (h : SameAt C D a)
    (hD : CompC v s D a Q) : CompC v s C a Q := fun j hj => hD j (h.enc ▸ hj)

theorem comp_ike {v : Int} {σ : Type} {S : JCodec σ} {get : σ → BOMReference}
    {put : σ → BOMReference → σ} {x : σ} {n : Int} {p : Place} (h : CompC v (.place p) S x True) :
    CompC v (.alt .str (.since n (.place p))) (J.ikev2 S get put) x True := by
  intro j hj
  rw [required_alt, required_since]
  simp only [J.ikev2] at hj
  split at hj
  · simp only [Option.some.injEq] at hj
    subst hj
    exact iff_true_intro ⟨.str _, required_place_str⟩
  · exact iff_true_intro ⟨.str _, (h j hj).2 trivial⟩

omit [FloatIO] in
theorem completeComponentList_iff {v : Int} (xs : List Component) :
    CompleteComponentList v xs ↔ ∀ c ∈ xs, c.Complete v := by
  induction xs with
  | nil => simp [CompleteComponentList]
  | cons x xs ih => simp [CompleteComponentList, ih]
omit [FloatIO] in
theorem completeComponents_iff {v : Int} (p : PSlice Component) :
    CompleteComponents v p ↔ ∀ c ∈ p.elems, c.Complete v := by
  cases p <;> simp [CompleteComponents, PSlice.elems, completeComponentList_iff]
omit [FloatIO] in
theorem completePedigreeOpt_iff {v : Int} (o : Option (Pedigree Component)) :
    CompletePedigreeOpt v o ↔ ∀ p ∈ o, CompletePedigree v p := by
  cases o <;> simp [CompletePedigreeOpt]
omit [FloatIO] in
theorem completeServiceList_iff {v : Int} (xs : List Service) : CompleteServiceList v xs ↔ ∀ c ∈ xs, c.Complete v := by
  induction xs with
  | nil => simp [CompleteServiceList]
  | cons x xs ih => simp [CompleteServiceList, ih]
omit [FloatIO] in
theorem completeServices_iff {v : Int} (p : PSlice Service) :
    CompleteServices v p ↔ ∀ c ∈ p.elems, c.Complete v := by
  cases p <;> simp [CompleteServices, PSlice.elems, completeServiceList_iff]

