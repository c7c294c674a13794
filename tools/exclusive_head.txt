import Verif.Spec.JsonExclusive
import Verif.Json.RequiredLaws

/-!
# Which values are written with one alternative only

GENERATED by `tools/gen_jexclusive.py`; do not edit by hand.  `ExclC v s c x Q`: when the codec `c` writes `x`, what
it writes has only one of the alternatives of the schema of version `v`, where `s` is declared, exactly if `Q`.  For
every type, at the place the schema has for it, `Q` is `T.Exclusive v`.
-/

namespace Verif

set_option linter.unusedSectionVars false
set_option linter.unusedSimpArgs false

theorem exclusive_list {v : Int} {s : Sch} {js : List Json} :
    HasExclusive v (.list s) (.arr js) ↔ s.Uniform v js ∧ ∀ j ∈ js, HasExclusive v s j := by
  refine ⟨fun h => ?_, fun h => .list h.1 h.2⟩
  cases h with
  | list h1 h2 => exact ⟨h1, h2⟩
  | noList h => exact absurd rfl (h js)
theorem exclusive_alt {v : Int} {s t : Sch} {j : Json} :
    HasExclusive v (.alt s t) j ↔ HasExclusive v s j ∧ HasExclusive v t j :=
  ⟨fun h => by cases h; constructor <;> assumption, fun h => .alt h.1 h.2⟩
theorem exclusive_since {v n : Int} {s : Sch} {j : Json} : HasExclusive v (.since n s) j ↔ HasExclusive v s j :=
  ⟨fun h => by cases h; assumption, .since⟩
theorem exclusive_place {v : Int} {p : Place} {ms : List (String × Json)} :
    HasExclusive v (.place p) (.obj ms) ↔ p.Permits v (fun k => ∃ m ∈ ms, m.1 = k) ∧
      ∀ m ∈ ms, ∀ s, p.members.lookup m.1 = some s → HasExclusive v s m.2 := by
  refine ⟨fun h => ?_, fun h => .place h.1 h.2⟩
  cases h with
  | place h1 h2 => exact ⟨h1, h2⟩
  | noPlace h => exact absurd rfl (h ms)
theorem exclusive_null {v : Int} : ∀ s : Sch, HasExclusive v s .null
  | .str => .str _
  | .num => .num _
  | .int => .int _
  | .bool => .bool _
  | .list _ => .noList (by simp)
  | .place _ => .noPlace (by simp)
  | .alt s t => .alt (exclusive_null s) (exclusive_null t)
  | .since _ s => .since (exclusive_null s)
theorem exclusive_list_obj {v : Int} {s : Sch} {ms : List (String × Json)} : HasExclusive v (.list s) (.obj ms) :=
  .noList (by simp)
theorem exclusive_place_arr {v : Int} {p : Place} {js : List Json} : HasExclusive v (.place p) (.arr js) :=
  .noPlace (by simp)
theorem exclusive_place_str {v : Int} {p : Place} {t : String} : HasExclusive v (.place p) (.str t) :=
  .noPlace (by simp)

theorem exclusive_plain {v : Int} : ∀ {s : Sch}, s.plain = true → ∀ j, HasExclusive v s j
  | .str, _, j => .str j
  | .num, _, j => .num j
  | .int, _, j => .int j
  | .bool, _, j => .bool j
  | .list s, h, j => by
    have ih := exclusive_plain (v := v) (s := s) h
    cases j with
    | arr js =>
      refine .list ?_ fun j _ => ih j
      cases s with
      | place _ => cases h
      | _ => trivial
    | _ => exact .noList (by simp)
  | .place _, h, _ => by cases h
  | .alt s t, h, j => by
    simp only [Sch.plain, Bool.and_eq_true] at h
    exact .alt (exclusive_plain h.1 j) (exclusive_plain h.2 j)
  | .since _ s, h, j => .since (exclusive_plain (s := s) h j)

/-- When `c` writes `a`, what it writes has the required members exactly if `Q`. -/
def ExclC {α : Type} (v : Int) (s : Sch) (c : JCodec α) (a : α) (Q : Prop) : Prop :=
  ∀ j, c.enc a = some j → (HasExclusive v s j ↔ Q)

/-- When the fields are written, the value of every member has what it needs exactly if `Q`. -/
def ExclF {β : Type} (v : Int) (p : Place) (F : JFields β) (b : β) (Q : Prop) : Prop :=
  ∀ ms, F.enc b = some ms → ((∀ m ∈ ms, ∀ s, p.members.lookup m.1 = some s → HasExclusive v s m.2) ↔ Q)

/-- One field: it is dropped and `Q` holds, or what is written has what it needs exactly if `Q`. -/
def FieldExcl {α : Type} (v : Int) (s : Option Sch) (oe : Bool) (c : JCodec α) (a : α) (Q : Prop) : Prop :=
  if oe && c.empty a then Q else ∀ j, c.enc a = some j → ((∀ t, s = some t → HasExclusive v t j) ↔ Q)

theorem ExclC.congr {α : Type} {v : Int} {s : Sch} {c : JCodec α} {a : α} {P Q : Prop} (h : ExclC v s c a P)
    (e : P ↔ Q) : ExclC v s c a Q := fun j hj => (h j hj).trans e

theorem exclF_nil {v : Int} {p : Place} {b : Unit} : ExclF v p .nil b True := by
  intro ms h
  simp only [JFields.enc, Option.some.injEq] at h
  subst h
  simp

theorem exclF_skip {v : Int} {p : Place} {α β : Type} {z : α} {F : JFields β} {b : α × β} {Q : Prop}
    (h : ExclF v p F b.2 Q) : ExclF v p (.skip z F) b Q := h

theorem exclF_field {v : Int} {p : Place} {α β : Type} {n : String} {oe : Bool} {c : JCodec α} {F : JFields β}
    {b : α × β} {P Q : Prop} (s : Option Sch) (hs : p.members.lookup n = s) (h1 : FieldExcl v s oe c b.1 P)
    (h2 : ExclF v p F b.2 Q) : ExclF v p (.field n oe c F) b (P ∧ Q) := by
  intro ms h
  simp only [JFields.enc] at h
  simp only [FieldExcl] at h1
  by_cases he : (oe && c.empty b.1) = true
  · rw [if_pos he] at h h1
    rw [h2 ms h]
    exact ⟨fun hq => ⟨h1, hq⟩, And.right⟩
  · rw [if_neg he] at h h1
    cases hc : c.enc b.1 with
    | none => simp [hc] at h
    | some j =>
      simp only [hc, Option.map_eq_some_iff] at h
      obtain ⟨ms', hm, rfl⟩ := h
      rw [← h1 j hc, ← h2 ms' hm]
      simp only [List.mem_cons, forall_eq_or_imp, hs]

theorem exclF_plain {v : Int} {p : Place} {α β : Type} {n : String} {oe : Bool} {c : JCodec α} {F : JFields β}
    {b : α × β} {Q : Prop} (s : Option Sch) (hs : p.members.lookup n = s) (h1 : FieldExcl v s oe c b.1 True)
    (h2 : ExclF v p F b.2 Q) : ExclF v p (.field n oe c F) b Q := by
  have := exclF_field s hs h1 h2
  rwa [true_and] at this

theorem excl_struct {v : Int} {p : Place} {σ β : Type} {F : JFields β} {toP : σ → β} {ofP : β → σ} {x : σ}
    {Q : Prop} (h : ExclF v p F (toP x) Q) :
    ExclC v (.place p) (JCodec.struct F toP ofP) x (p.Permits v (F.Writes (toP x)) ∧ Q) := by
  intro j hj
  simp only [JCodec.struct, Option.map_eq_some_iff] at hj
  obtain ⟨ms, hm, rfl⟩ := hj
  have e : (fun k => ∃ m ∈ ms, m.1 = k) = F.Writes (toP x) := funext fun k => propext (has_iff F (toP x) hm k)
  rw [exclusive_place, e, h ms hm]

/-! ### Fields -/

theorem exf_none {v : Int} {α : Type} {oe : Bool} {c : JCodec α} {a : α} : FieldExcl v none oe c a True := by
  simp [FieldExcl]

theorem exf_plain {v : Int} {α : Type} {oe : Bool} {s : Sch} {c : JCodec α} {a : α} (h : s.plain = true) :
    FieldExcl v (some s) oe c a True := by
  simp only [FieldExcl]
  split
  · trivial
  · intro j _
    simp [exclusive_plain h j]

theorem exf_since {v n : Int} {α : Type} {oe : Bool} {s : Sch} {c : JCodec α} {a : α} {P : Prop}
    (h : FieldExcl v (some s) oe c a P) : FieldExcl v (some (.since n s)) oe c a P := by
  simp only [FieldExcl] at h ⊢
  split
  · rwa [if_pos (by assumption)] at h
  · rw [if_neg (by assumption)] at h
    intro j hj
    rw [← h j hj]
    simp [exclusive_since]

theorem exf_val {v : Int} {σ β : Type} {oe : Bool} {s : Sch} {F : JFields β} {toP : σ → β} {ofP : β → σ} {x : σ}
    {P : Prop} (h : ExclC v s (JCodec.struct F toP ofP) x P) :
    FieldExcl v (some s) oe (JCodec.struct F toP ofP) x P := by
  simp only [FieldExcl, JCodec.struct, Bool.and_false, Bool.false_eq_true, if_false]
  intro j hj
  simpa using h j hj

theorem exf_opt {v : Int} {α : Type} {oe : Bool} {s : Sch} {c : JCodec α} {o : Option α} {P : α → Prop}
    (h : ∀ a ∈ o, ExclC v s c a (P a)) : FieldExcl v (some s) oe (JCodec.option c) o (∀ a ∈ o, P a) := by
  cases o with
  | none =>
    simp only [FieldExcl]
    split
    · simp
    · intro j hj
      simp only [JCodec.option, Option.some.injEq] at hj
      subst hj
      simp [exclusive_null]
  | some a =>
    simp only [FieldExcl, JCodec.option, Option.isNone_some, Bool.and_false, Bool.false_eq_true, if_false]
    intro j hj
    simpa using h a rfl j hj

theorem exf_opt_true {v : Int} {α : Type} {oe : Bool} {s : Sch} {c : JCodec α} {o : Option α}
    (h : ∀ a ∈ o, ExclC v s c a True) : FieldExcl v (some s) oe (JCodec.option c) o True := by
  have := exf_opt (oe := oe) (P := fun _ => True) h
  simpa using this

theorem exclC_encList {v : Int} {α : Type} {s : Sch} {c : JCodec α} {P : α → Prop} : ∀ {xs : List α} {js : List Json},
    (∀ a ∈ xs, ExclC v s c a (P a)) → JCodec.encList c xs = some js →
    ((∀ j ∈ js, HasExclusive v s j) ↔ ∀ a ∈ xs, P a)
  | [], js, _, h => by
    simp only [JCodec.encList, Option.some.injEq] at h
    subst h
    simp
  | x :: xs, js, hx, h => by
    simp only [JCodec.encList] at h
    cases hc : c.enc x with
    | none => simp [hc] at h
    | some j =>
      simp only [hc, Option.map_eq_some_iff] at h
      obtain ⟨js', h', rfl⟩ := h
      have ih := exclC_encList (fun a ha => hx a (List.mem_cons_of_mem _ ha)) h'
      simp only [List.mem_cons, forall_eq_or_imp, ih, hx x (by simp) j hc]

theorem excl_list {v : Int} {α : Type} {s : Sch} {c : JCodec α} {p : PSlice α} {P : α → Prop}
    (hs : ∀ js, s.Uniform v js) (h : ∀ a ∈ p.elems, ExclC v s c a (P a)) :
    ExclC v (.list s) (JCodec.pslice c) p (∀ a ∈ p.elems, P a) := by
  intro j hj
  cases p with
  | nil =>
    simp only [JCodec.pslice, Option.some.injEq] at hj
    subst hj
    simp [exclusive_null, PSlice.elems]
  | nilSlice =>
    simp only [JCodec.pslice, Option.some.injEq] at hj
    subst hj
    simp [exclusive_null, PSlice.elems]
  | list xs =>
    simp only [JCodec.pslice, Option.map_eq_some_iff] at hj
    obtain ⟨js, h', rfl⟩ := hj
    simp only [PSlice.elems] at h ⊢
    rw [exclusive_list, exclC_encList h h']
    exact ⟨And.right, fun h => ⟨hs js, h⟩⟩

theorem exf_list {v : Int} {α : Type} {oe : Bool} {s : Sch} {c : JCodec α} {p : PSlice α} {P : α → Prop}
    (hs : ∀ js, s.Uniform v js) (h : ∀ a ∈ p.elems, ExclC v s c a (P a)) :
    FieldExcl v (some (.list s)) oe (JCodec.pslice c) p (∀ a ∈ p.elems, P a) := by
  simp only [FieldExcl]
  split
  · rename_i he
    rw [Bool.and_eq_true] at he
    cases p <;> simp_all [JCodec.pslice, PSlice.isNil, PSlice.elems]
  · intro j hj
    simpa using excl_list hs h j hj

theorem exf_list_true {v : Int} {α : Type} {oe : Bool} {s : Sch} {c : JCodec α} {p : PSlice α}
    (hs : ∀ js, s.Uniform v js) (h : ∀ a ∈ p.elems, ExclC v s c a True) :
    FieldExcl v (some (.list s)) oe (JCodec.pslice c) p True := by
  have := exf_list (oe := oe) (P := fun _ => True) hs h
  simpa using this

variable [FloatIO]

theorem SameAt.exclC {v : Int} {s : Sch} {α : Type} {C D : JCodec α} {a : α} {Q : Prop} (h : SameAt C D a)
    (hD : ExclC v s D a Q) : ExclC v s C a Q := fun j hj => hD j (h.enc ▸ hj)

theorem excl_ike {v : Int} {σ : Type} {S : JCodec σ} {get : σ → BOMReference}
    {put : σ → BOMReference → σ} {x : σ} {n : Int} {p : Place} (h : ExclC v (.place p) S x True) :
    ExclC v (.alt .str (.since n (.place p))) (J.ikev2 S get put) x True := by
  intro j hj
  rw [exclusive_alt, exclusive_since]
  simp only [J.ikev2] at hj
  split at hj
  · simp only [Option.some.injEq] at hj
    subst hj
    exact iff_true_intro ⟨.str _, exclusive_place_str⟩
  · exact iff_true_intro ⟨.str _, (h j hj).2 trivial⟩

omit [FloatIO] in
theorem exclusiveComponentList_iff {v : Int} (xs : List Component) :
    ExclusiveComponentList v xs ↔ ∀ c ∈ xs, c.Exclusive v := by
  induction xs with
  | nil => simp [ExclusiveComponentList]
  | cons x xs ih => simp [ExclusiveComponentList, ih]
omit [FloatIO] in
theorem exclusiveComponents_iff {v : Int} (p : PSlice Component) :
    ExclusiveComponents v p ↔ ∀ c ∈ p.elems, c.Exclusive v := by
  cases p <;> simp [ExclusiveComponents, PSlice.elems, exclusiveComponentList_iff]
omit [FloatIO] in
theorem exclusivePedigreeOpt_iff {v : Int} (o : Option (Pedigree Component)) :
    ExclusivePedigreeOpt v o ↔ ∀ p ∈ o, ExclusivePedigree v p := by
  cases o <;> simp [ExclusivePedigreeOpt]
omit [FloatIO] in
theorem exclusiveServiceList_iff {v : Int} (xs : List Service) : ExclusiveServiceList v xs ↔ ∀ c ∈ xs, c.Exclusive v := by
  induction xs with
  | nil => simp [ExclusiveServiceList]
  | cons x xs ih => simp [ExclusiveServiceList, ih]
omit [FloatIO] in
theorem exclusiveServices_iff {v : Int} (p : PSlice Service) :
    ExclusiveServices v p ↔ ∀ c ∈ p.elems, c.Exclusive v := by
  cases p <;> simp [ExclusiveServices, PSlice.elems, exclusiveServiceList_iff]

