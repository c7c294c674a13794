import Verif.Spec.JsonExclusive
import Verif.Json.RequiredLaws

/-!
# Which values are written with one alternative only

GENERATED by `tools/gen_jexclusive.py`; do not edit by hand.  `ExclC v s c x Q`: when the codec `c` writes `x`, what
it writes has only one of the alternatives of the schema of version `v`, where `s` is declared, exactly if `Q`.  For
every type, at the place the schema has for it, `Q` is `T.Exclusive v`.
-/

namespace Verif

set_option linter.unusedSectionVars false
set_option linter.unusedSimpArgs false

theorem exclusive_list {v : Int} {s : Sch} {js : List Json} :
    HasExclusive v (.list s) (.arr js) ↔ s.Uniform v js ∧ ∀ j ∈ js, HasExclusive v s j := by
  refine ⟨fun h => ?_, fun h => .list h.1 h.2⟩
  cases h with
  | list h1 h2 => exact ⟨h1, h2⟩
  | noList h => exact absurd rfl (h js)
theorem exclusive_alt {v : Int} {s t : Sch} {j : Json} :
    HasExclusive v (.alt s t) j ↔ HasExclusive v s j ∧ HasExclusive v t j :=
  ⟨fun h => by cases h; constructor <;> assumption, fun h => .alt h.1 h.2⟩
theorem exclusive_since {v n : Int} {s : Sch} {j : Json} : HasExclusive v (.since n s) j ↔ HasExclusive v s j :=
  ⟨fun h => by cases h; assumption, .since⟩
theorem exclusive_place {v : Int} {p : Place} {ms : List (String × Json)} :
    HasExclusive v (.place p) (.obj ms) ↔ p.Permits v (fun k => ∃ m ∈ ms, m.1 = k) ∧
      ∀ m ∈ ms, ∀ s, p.members.lookup m.1 = some s → HasExclusive v s m.2 := by
  refine ⟨fun h => ?_, fun h => .place h.1 h.2⟩
  cases h with
  | place h1 h2 => exact ⟨h1, h2⟩
  | noPlace h => exact absurd rfl (h ms)
theorem exclusive_null {v : Int} : ∀ s : Sch, HasExclusive v s .null
  | .str => .str _
  | .num => .num _
  | .int => .int _
  | .bool => .bool _
  | .list _ => .noList (by simp)
  | .place _ => .noPlace (by simp)
  | .alt s t => .alt (exclusive_null s) (exclusive_null t)
  | .since _ s => .since (exclusive_null s)
theorem exclusive_list_obj {v : Int} {s : Sch} {ms : List (String × Json)} : HasExclusive v (.list s) (.obj ms) :=
  .noList (by simp)
theorem exclusive_place_arr {v : Int} {p : Place} {js : List Json} : HasExclusive v (.place p) (.arr js) :=
  .noPlace (by simp)
theorem exclusive_place_str {v : Int} {p : Place} {t : String} : HasExclusive v (.place p) (.str t) :=
  .noPlace (by simp)

theorem exclusive_plain {v : Int} : ∀ {s : Sch}, s.plain = true → ∀ j, HasExclusive v s j
  | .str, _, j => .str j
  | .num, _, j => .num j
  | .int, _, j => .int j
  | .bool, _, j => .bool j
  | .list s, h, j => by
    have ih := exclusive_plain (v := v) (s := s) h
    cases j with
    | arr js =>
      refine .list ?_ fun j _ => ih j
      cases s with
      | place _ => cases h
      | _ => trivial
    | _ => exact .noList (by simp)
  | .place _, h, _ => by cases h
  | .alt s t, h, j => by
    simp only [Sch.plain, Bool.and_eq_true] at h
    exact .alt (exclusive_plain h.1 j) (exclusive_plain h.2 j)
  | .since _ s, h, j => .since (exclusive_plain (s := s) h j)

/-- When `c` writes `a`, what it writes has the required members exactly if `Q`. -/
def ExclC {α : Type} (v : Int) (s : Sch) (c : JCodec α) (a : α) (Q : Prop) : Prop :=
  ∀ j, c.enc a = some j → (HasExclusive v s j ↔ Q)

/-- When the fields are written, the value of every member has what it needs exactly if `Q`. -/
def ExclF {β : Type} (v : Int) (p : Place) (F : JFields β) (b : β) (Q : Prop) : Prop :=
  ∀ ms, F.enc b = some ms → ((∀ m ∈ ms, ∀ s, p.members.lookup m.1 = some s → HasExclusive v s m.2) ↔ Q)

/-- One field: it is dropped and `Q` holds, or what is written has what it needs exactly if `Q`. -/
def FieldExcl {α : Type} (v : Int) (s : Option Sch) (oe : Bool) (c : JCodec α) (a : α) (Q : Prop) : Prop :=
  if oe && c.empty a then Q else ∀ j, c.enc a = some j → ((∀ t, s = some t → HasExclusive v t j) ↔ Q)

theorem ExclC.congr {α : Type} {v : Int} {s : Sch} {c : JCodec α} {a : α} {P Q : Prop} (h : ExclC v s c a P)
    (e : P ↔ Q) : ExclC v s c a Q := fun j hj => (h j hj).trans e

theorem exclF_nil {v : Int} {p : Place} {b : Unit} : ExclF v p .nil b True := by
  intro ms h
  simp only [JFields.enc, Option.some.injEq] at h
  subst h
  simp

theorem exclF_skip {v : Int} {p : Place} {α β : Type} {z : α} {F : JFields β} {b : α × β} {Q : Prop}
    (h : ExclF v p F b.2 Q) : ExclF v p (.skip z F) b Q := h

theorem exclF_field {v : Int} {p : Place} {α β : Type} {n : String} {oe : Bool} {c : JCodec α} {F : JFields β}
    {b : α × β} {P Q : Prop} (s : Option Sch) (hs : p.members.lookup n = s) (h1 : FieldExcl v s oe c b.1 P)
    (h2 : ExclF v p F b.2 Q) : ExclF v p (.field n oe c F) b (P ∧ Q) := by
  intro ms h
  simp only [JFields.enc] at h
  simp only [FieldExcl] at h1
  by_cases he : (oe && c.empty b.1) = true
  · rw [if_pos he] at h h1
    rw [h2 ms h]
    exact ⟨fun hq => ⟨h1, hq⟩, And.right⟩
  · rw [if_neg he] at h h1
    cases hc : c.enc b.1 with
    | none => simp [hc] at h
    | some j =>
      simp only [hc, Option.map_eq_some_iff] at h
      obtain ⟨ms', hm, rfl⟩ := h
      rw [← h1 j hc, ← h2 ms' hm]
      simp only [List.mem_cons, forall_eq_or_imp, hs]

theorem exclF_plain {v : Int} {p : Place} {α β : Type} {n : String} {oe : Bool} {c : JCodec α} {F : JFields β}
    {b : α × β} {Q : Prop} (s : Option Sch) (hs : p.members.lookup n = s) (h1 : FieldExcl v s oe c b.1 True)
    (h2 : ExclF v p F b.2 Q) : ExclF v p (.field n oe c F) b Q := by
  have := exclF_field s hs h1 h2
  rwa [true_and] at this

theorem excl_struct {v : Int} {p : Place} {σ β : Type} {F : JFields β} {toP : σ → β} {ofP : β → σ} {x : σ}
    {Q : Prop} (h : ExclF v p F (toP x) Q) :
    ExclC v (.place p) (JCodec.struct F toP ofP) x (p.Permits v (F.Writes (toP x)) ∧ Q) := by
  intro j hj
  simp only [JCodec.struct, Option.map_eq_some_iff] at hj
  obtain ⟨ms, hm, rfl⟩ := hj
  have e : (fun k => ∃ m ∈ ms, m.1 = k) = F.Writes (toP x) := funext fun k => propext (has_iff F (toP x) hm k)
  rw [exclusive_place, e, h ms hm]

/-! ### Fields -/

theorem exf_none {v : Int} {α : Type} {oe : Bool} {c : JCodec α} {a : α} : FieldExcl v none oe c a True := by
  simp [FieldExcl]

theorem exf_plain {v : Int} {α : Type} {oe : Bool} {s : Sch} {c : JCodec α} {a : α} (h : s.plain = true) :
    FieldExcl v (some s) oe c a True := by
  simp only [FieldExcl]
  split
  · trivial
  · intro j _
    simp [exclusive_plain h j]

theorem exf_since {v n : Int} {α : Type} {oe : Bool} {s : Sch} {c : JCodec α} {a : α} {P : Prop}
    (h : FieldExcl v (some s) oe c a P) : FieldExcl v (some (.since n s)) oe c a P := by
  simp only [FieldExcl] at h ⊢
  split
  · rwa [if_pos (by assumption)] at h
  · rw [if_neg (by assumption)] at h
    intro j hj
    rw [← h j hj]
    simp [exclusive_since]

theorem exf_val {v : Int} {σ β : Type} {oe : Bool} {s : Sch} {F : JFields β} {toP : σ → β} {ofP : β → σ} {x : σ}
    {P : Prop} (h : ExclC v s (JCodec.struct F toP ofP) x P) :
    FieldExcl v (some s) oe (JCodec.struct F toP ofP) x P := by
  simp only [FieldExcl, JCodec.struct, Bool.and_false, Bool.false_eq_true, if_false]
  intro j hj
  simpa using h j hj

theorem exf_opt {v : Int} {α : Type} {oe : Bool} {s : Sch} {c : JCodec α} {o : Option α} {P : α → Prop}
    (h : ∀ a ∈ o, ExclC v s c a (P a)) : FieldExcl v (some s) oe (JCodec.option c) o (∀ a ∈ o, P a) := by
  cases o with
  | none =>
    simp only [FieldExcl]
    split
    · simp
    · intro j hj
      simp only [JCodec.option, Option.some.injEq] at hj
      subst hj
      simp [exclusive_null]
  | some a =>
    simp only [FieldExcl, JCodec.option, Option.isNone_some, Bool.and_false, Bool.false_eq_true, if_false]
    intro j hj
    simpa using h a rfl j hj

theorem exf_opt_true {v : Int} {α : Type} {oe : Bool} {s : Sch} {c : JCodec α} {o : Option α}
    (h : ∀ a ∈ o, ExclC v s c a True) : FieldExcl v (some s) oe (JCodec.option c) o True := by
  have := exf_opt (oe := oe) (P := fun _ => True) h
  simpa using this

theorem exclC_encList {v : Int} {α : Type} {s : Sch} {c : JCodec α} {P : α → Prop} : ∀ {xs : List α} {js : List Json},
    (∀ a ∈ xs, ExclC v s c a (P a)) → JCodec.encList c xs = some js →
    ((∀ j ∈ js, HasExclusive v s j) ↔ ∀ a ∈ xs, P a)
  | [], js, _, h => by
    simp only [JCodec.encList, Option.some.injEq] at h
    subst h
    simp
  | x :: xs, js, hx, h => by
    simp only [JCodec.encList] at h
    cases hc : c.enc x with
    | none => simp [hc] at h
    | some j =>
      simp only [hc, Option.map_eq_some_iff] at h
      obtain ⟨js', h', rfl⟩ := h
      have ih := exclC_encList (fun a ha => hx a (List.mem_cons_of_mem _ ha)) h'
      simp only [List.mem_cons, forall_eq_or_imp, ih, hx x (by simp) j hc]

theorem excl_list {v : Int} {α : Type} {s : Sch} {c : JCodec α} {p : PSlice α} {P : α → Prop}
    (hs : ∀ js, s.Uniform v js) (h : ∀ a ∈ p.elems, ExclC v s c a (P a)) :
    ExclC v (.list s) (JCodec.pslice c) p (∀ a ∈ p.elems, P a) := by
  intro j hj
  cases p with
  | nil =>
    simp only [JCodec.pslice, Option.some.injEq] at hj
    subst hj
    simp [exclusive_null, PSlice.elems]
  | nilSlice =>
    simp only [JCodec.pslice, Option.some.injEq] at hj
    subst hj
    simp [exclusive_null, PSlice.elems]
  | list xs =>
    simp only [JCodec.pslice, Option.map_eq_some_iff] at hj
    obtain ⟨js, h', rfl⟩ := hj
    simp only [PSlice.elems] at h ⊢
    rw [exclusive_list, exclC_encList h h']
    exact ⟨And.right, fun h => ⟨hs js, h⟩⟩

theorem exf_list {v : Int} {α : Type} {oe : Bool} {s : Sch} {c : JCodec α} {p : PSlice α} {P : α → Prop}
    (hs : ∀ js, s.Uniform v js) (h : ∀ a ∈ p.elems, ExclC v s c a (P a)) :
    FieldExcl v (some (.list s)) oe (JCodec.pslice c) p (∀ a ∈ p.elems, P a) := by
  simp only [FieldExcl]
  split
  · rename_i he
    rw [Bool.and_eq_true] at he
    cases p <;> simp_all [JCodec.pslice, PSlice.isNil, PSlice.elems]
  · intro j hj
    simpa using excl_list hs h j hj

theorem exf_list_true {v : Int} {α : Type} {oe : Bool} {s : Sch} {c : JCodec α} {p : PSlice α}
    (hs : ∀ js, s.Uniform v js) (h : ∀ a ∈ p.elems, ExclC v s c a True) :
    FieldExcl v (some (.list s)) oe (JCodec.pslice c) p True := by
  have := exf_list (oe := oe) (P := fun _ => True) hs h
  simpa using this

variable [FloatIO]

theorem SameAt.exclC {v : Int} {s : Sch} {α : Type} {C D : JCodec α} {a : α} {Q : Prop} (h : SameAt C D a)
    (hD : ExclC v s D a Q) : ExclC v s C a Q := fun j hj => hD j (h.enc ▸ hj)

theorem excl_ike {v : Int} {σ : Type} {S : JCodec σ} {get : σ → BOMReference}
    {put : σ → BOMReference → σ} {x : σ} {n : Int} {p : Place} (h : ExclC v (.place p) S x True) :
    ExclC v (.alt .str (.since n (.place p))) (J.ikev2 S get put) x True := by
  intro j hj
  rw [exclusive_alt, exclusive_since]
  simp only [J.ikev2] at hj
  split at hj
  · simp only [Option.some.injEq] at hj
    subst hj
    exact iff_true_intro ⟨.str _, exclusive_place_str⟩
  · exact iff_true_intro ⟨.str _, (h j hj).2 trivial⟩

omit [FloatIO] in
theorem exclusiveComponentList_iff {v : Int} (xs : List Component) :
    ExclusiveComponentList v xs ↔ ∀ c ∈ xs, c.Exclusive v := by
  induction xs with
  | nil => simp [ExclusiveComponentList]
  | cons x xs ih => simp [ExclusiveComponentList, ih]
omit [FloatIO] in
theorem exclusiveComponents_iff {v : Int} (p : PSlice Component) :
    ExclusiveComponents v p ↔ ∀ c ∈ p.elems, c.Exclusive v := by
  cases p <;> simp [ExclusiveComponents, PSlice.elems, exclusiveComponentList_iff]
omit [FloatIO] in
theorem exclusivePedigreeOpt_iff {v : Int} (o : Option (Pedigree Component)) :
    ExclusivePedigreeOpt v o ↔ ∀ p ∈ o, ExclusivePedigree v p := by
  cases o <;> simp [ExclusivePedigreeOpt]
omit [FloatIO] in
theorem exclusiveServiceList_iff {v : Int} (xs : List Service) : ExclusiveServiceList v xs ↔ ∀ c ∈ xs, c.Exclusive v := by
  induction xs with
  | nil => simp [ExclusiveServiceList]
  | cons x xs ih => simp [ExclusiveServiceList, ih]
omit [FloatIO] in
theorem exclusiveServices_iff {v : Int} (p : PSlice Service) :
    ExclusiveServices v p ↔ ∀ c ∈ p.elems, c.Exclusive v := by
  cases p <;> simp [ExclusiveServices, PSlice.elems, exclusiveServiceList_iff]


theorem excl_advisory (v : Int) (x : Advisory) : ExclC v (.place .advisory) J.advisory x True := by
  refine ExclC.congr (excl_struct (
    exclF_plain (some .str) rfl (exf_plain rfl) <|
    exclF_plain (some .str) rfl (exf_plain rfl) <|
    exclF_nil)) ?_
  simp [Place.Permits, ]

theorem excl_affectedVersions (v : Int) (x : AffectedVersions) : ExclC v (.place .affectedVersions) J.affectedVersions x (AffectedVersions.Exclusive v x) := by
  refine ExclC.congr (excl_struct (
    exclF_plain (some .str) rfl (exf_plain rfl) <|
    exclF_plain (some .str) rfl (exf_plain rfl) <|
    exclF_plain (some .str) rfl (exf_plain rfl) <|
    exclF_nil)) ?_
  simp [Place.Permits, AffectedVersions.Exclusive, J.affectedVersionsFields, JFields.Writes, AffectedVersions.toP, nem_string, nem_bomReference, nem_option, nem_pslice, and_assoc]

theorem excl_affects (v : Int) (x : Affects) : ExclC v (.place .vulnerabilityAffects) J.affects x (Affects.Exclusive v x) := by
  refine ExclC.congr (excl_struct (
    exclF_plain (some .str) rfl (exf_plain rfl) <|
    exclF_field (some (.list (.place .affectedVersions))) rfl (exf_list (fun _ => trivial) (fun a _ => excl_affectedVersions v a)) <|
    exclF_nil)) ?_
  simp [Place.Permits, Affects.Exclusive, Affects.toP]

theorem excl_attachedText (v : Int) (x : AttachedText) : ExclC v (.place .attachment) J.attachedText x True := by
  refine ExclC.congr (excl_struct (
    exclF_plain (some .str) rfl (exf_plain rfl) <|
    exclF_plain (some .str) rfl (exf_plain rfl) <|
    exclF_plain (some .str) rfl (exf_plain rfl) <|
    exclF_nil)) ?_
  simp [Place.Permits, ]

theorem excl_property (v : Int) (x : Property) : ExclC v (.place .property) J.property x True := by
  refine ExclC.congr (excl_struct (
    exclF_plain (some .str) rfl (exf_plain rfl) <|
    exclF_plain (some .str) rfl (exf_plain rfl) <|
    exclF_nil)) ?_
  simp [Place.Permits, ]

theorem excl_componentDataContents (v : Int) (x : ComponentDataContents) : ExclC v (.place .componentDataContents) J.componentDataContents x True := by
  refine ExclC.congr (excl_struct (
    exclF_plain (some (.place .attachment)) rfl (exf_opt_true (fun a _ => excl_attachedText v a)) <|
    exclF_plain (some .str) rfl (exf_plain rfl) <|
    exclF_plain (some (.list (.place .property))) rfl (exf_list_true (fun _ => trivial) (fun a _ => excl_property v a)) <|
    exclF_nil)) ?_
  simp [Place.Permits, ]

theorem excl_componentDataGraphic (v : Int) (x : ComponentDataGraphic) : ExclC v (.place .graphic) J.componentDataGraphic x True := by
  refine ExclC.congr (excl_struct (
    exclF_plain (some .str) rfl (exf_plain rfl) <|
    exclF_plain (some (.place .attachment)) rfl (exf_opt_true (fun a _ => excl_attachedText v a)) <|
    exclF_nil)) ?_
  simp [Place.Permits, ]

theorem excl_componentDataGraphics (v : Int) (x : ComponentDataGraphics) : ExclC v (.place .graphicsCollection) J.componentDataGraphics x True := by
  refine ExclC.congr (excl_struct (
    exclF_plain (some .str) rfl (exf_plain rfl) <|
    exclF_plain (some (.list (.place .graphic))) rfl (exf_list_true (fun _ => trivial) (fun a _ => excl_componentDataGraphic v a)) <|
    exclF_nil)) ?_
  simp [Place.Permits, ]

theorem excl_organizationalContact (v : Int) (x : OrganizationalContact) : ExclC v (.place .organizationalContact) J.organizationalContact x True := by
  refine ExclC.congr (excl_struct (
    exclF_plain (some (.since SpecVersion1_5 .str)) rfl (exf_plain rfl) <|
    exclF_plain (some .str) rfl (exf_plain rfl) <|
    exclF_plain (some .str) rfl (exf_plain rfl) <|
    exclF_plain (some .str) rfl (exf_plain rfl) <|
    exclF_nil)) ?_
  simp [Place.Permits, ]

theorem excl_postalAddress (v : Int) (x : PostalAddress) : ExclC v (.place .postalAddress) J.postalAddress x True := by
  refine ExclC.congr (excl_struct (
    exclF_plain (some .str) rfl (exf_plain rfl) <|
    exclF_plain (some .str) rfl (exf_plain rfl) <|
    exclF_plain (some .str) rfl (exf_plain rfl) <|
    exclF_plain (some .str) rfl (exf_plain rfl) <|
    exclF_plain (some .str) rfl (exf_plain rfl) <|
    exclF_plain (some .str) rfl (exf_plain rfl) <|
    exclF_plain (some .str) rfl (exf_plain rfl) <|
    exclF_nil)) ?_
  simp [Place.Permits, ]

theorem excl_organizationalEntity (v : Int) (x : OrganizationalEntity) : ExclC v (.place .organizationalEntity) J.organizationalEntity x True := by
  refine ExclC.congr (excl_struct (
    exclF_plain (some (.since SpecVersion1_5 .str)) rfl (exf_plain rfl) <|
    exclF_plain (some .str) rfl (exf_plain rfl) <|
    exclF_plain (some (.since SpecVersion1_6 (.place .postalAddress))) rfl (exf_since (exf_opt_true (fun a _ => excl_postalAddress v a))) <|
    exclF_plain (some (.list .str)) rfl (exf_plain rfl) <|
    exclF_plain (some (.list (.place .organizationalContact))) rfl (exf_list_true (fun _ => trivial) (fun a _ => excl_organizationalContact v a)) <|
    exclF_nil)) ?_
  simp [Place.Permits, ]

theorem excl_componentDataGovernanceResponsibleParty (v : Int) (x : ComponentDataGovernanceResponsibleParty) : ExclC v (.place .dataGovernanceResponsibleParty) J.componentDataGovernanceResponsibleParty x (ComponentDataGovernanceResponsibleParty.Exclusive v x) := by
  refine ExclC.congr (excl_struct (
    exclF_plain (some (.place .organizationalEntity)) rfl (exf_opt_true (fun a _ => excl_organizationalEntity v a)) <|
    exclF_plain (some (.place .organizationalContact)) rfl (exf_opt_true (fun a _ => excl_organizationalContact v a)) <|
    exclF_nil)) ?_
  simp [Place.Permits, ComponentDataGovernanceResponsibleParty.Exclusive, J.componentDataGovernanceResponsiblePartyFields, JFields.Writes, ComponentDataGovernanceResponsibleParty.toP, nem_string, nem_bomReference, nem_option, nem_pslice, and_assoc]

theorem excl_dataGovernance (v : Int) (x : DataGovernance) : ExclC v (.place .dataGovernance) J.dataGovernance x (DataGovernance.Exclusive v x) := by
  refine ExclC.congr (excl_struct (
    exclF_field (some (.list (.place .dataGovernanceResponsibleParty))) rfl (exf_list (fun _ => trivial) (fun a _ => excl_componentDataGovernanceResponsibleParty v a)) <|
    exclF_field (some (.list (.place .dataGovernanceResponsibleParty))) rfl (exf_list (fun _ => trivial) (fun a _ => excl_componentDataGovernanceResponsibleParty v a)) <|
    exclF_field (some (.list (.place .dataGovernanceResponsibleParty))) rfl (exf_list (fun _ => trivial) (fun a _ => excl_componentDataGovernanceResponsibleParty v a)) <|
    exclF_nil)) ?_
  simp [Place.Permits, DataGovernance.Exclusive, DataGovernance.toP]

theorem excl_componentData (v : Int) (x : ComponentData) : ExclC v (.place .componentData) J.componentData x (ComponentData.Exclusive v x) := by
  refine ExclC.congr (excl_struct (
    exclF_plain (some .str) rfl (exf_plain rfl) <|
    exclF_plain (some .str) rfl (exf_plain rfl) <|
    exclF_plain (some .str) rfl (exf_plain rfl) <|
    exclF_plain (some (.place .componentDataContents)) rfl (exf_opt_true (fun a _ => excl_componentDataContents v a)) <|
    exclF_plain (some .str) rfl (exf_plain rfl) <|
    exclF_plain (some (.list .str)) rfl (exf_plain rfl) <|
    exclF_plain (some (.place .graphicsCollection)) rfl (exf_opt_true (fun a _ => excl_componentDataGraphics v a)) <|
    exclF_plain (some .str) rfl (exf_plain rfl) <|
    exclF_field (some (.place .dataGovernance)) rfl (exf_opt (fun a _ => excl_dataGovernance v a)) <|
    exclF_nil)) ?_
  simp [Place.Permits, ComponentData.Exclusive, ComponentData.toP]

theorem excl_componentData_modelDataset (v : Int) (x : ComponentData) : ExclC v (.place .modelDataset) J.componentData x (ComponentData.Exclusive v x) := by
  refine ExclC.congr (excl_struct (
    exclF_plain (some .str) rfl (exf_plain rfl) <|
    exclF_plain (some .str) rfl (exf_plain rfl) <|
    exclF_plain (some .str) rfl (exf_plain rfl) <|
    exclF_plain (some (.place .componentDataContents)) rfl (exf_opt_true (fun a _ => excl_componentDataContents v a)) <|
    exclF_plain (some .str) rfl (exf_plain rfl) <|
    exclF_plain (some (.list .str)) rfl (exf_plain rfl) <|
    exclF_plain (some (.place .graphicsCollection)) rfl (exf_opt_true (fun a _ => excl_componentDataGraphics v a)) <|
    exclF_plain (some .str) rfl (exf_plain rfl) <|
    exclF_field (some (.place .dataGovernance)) rfl (exf_opt (fun a _ => excl_dataGovernance v a)) <|
    exclF_nil)) ?_
  simp [Place.Permits, ComponentData.Exclusive, J.componentDataFields, JFields.Writes, ComponentData.toP, nem_string, nem_bomReference, nem_option, nem_pslice, and_assoc]

theorem excl_hash (v : Int) (x : Hash) : ExclC v (.place .hash) J.hash x True := by
  refine ExclC.congr (excl_struct (
    exclF_plain (some .str) rfl (exf_plain rfl) <|
    exclF_plain (some .str) rfl (exf_plain rfl) <|
    exclF_nil)) ?_
  simp [Place.Permits, ]

theorem excl_relatedCryptographicAsset (v : Int) (x : RelatedCryptographicAsset) : ExclC v (.place .relatedCryptographicAsset) J.relatedCryptographicAsset x True := by
  refine ExclC.congr (excl_struct (
    exclF_plain (some .str) rfl (exf_plain rfl) <|
    exclF_plain (some .str) rfl (exf_plain rfl) <|
    exclF_nil)) ?_
  simp [Place.Permits, ]

theorem excl_predefinedCertificateState (v : Int) (x : PredefinedCertificateState) : ExclC v (.place .certificateState) J.predefinedCertificateState x True := by
  refine ExclC.congr (excl_struct (
    exclF_plain (some .str) rfl (exf_plain rfl) <|
    exclF_plain (some .str) rfl (exf_plain rfl) <|
    exclF_nil)) ?_
  simp [Place.Permits, J.predefinedCertificateStateFields, JFields.Writes, PredefinedCertificateState.toP, nem_string, nem_bomReference, nem_option, nem_pslice, and_assoc]

theorem excl_customCertificateState (v : Int) (x : CustomCertificateState) : ExclC v (.place .certificateState) J.customCertificateState x True := by
  refine ExclC.congr (excl_struct (
    exclF_plain (some .str) rfl (exf_plain rfl) <|
    exclF_plain (some .str) rfl (exf_plain rfl) <|
    exclF_plain (some .str) rfl (exf_plain rfl) <|
    exclF_nil)) ?_
  simp [Place.Permits, J.customCertificateStateFields, JFields.Writes, CustomCertificateState.toP, nem_string, nem_bomReference, nem_option, nem_pslice, and_assoc]

theorem excl_certificateState (v : Int) (x : CertificateState) :
    ExclC v (.place .certificateState) J.certificateState x True := by
  intro j hj
  obtain ⟨a, b⟩ := x
  cases a <;> cases b <;> simp only [J.certificateState] at hj
  · simp only [Option.some.injEq] at hj; subst hj
    simp [exclusive_place, Place.Permits]
  · exact excl_customCertificateState v _ j hj
  · exact excl_predefinedCertificateState v _ j hj
  · cases hj


theorem excl_commonCertificateExtension (v : Int) (x : CommonCertificateExtension) : ExclC v (.place .certificateExtension) J.commonCertificateExtension x True := by
  refine ExclC.congr (excl_struct (
    exclF_plain (some .str) rfl (exf_plain rfl) <|
    exclF_plain (some .str) rfl (exf_plain rfl) <|
    exclF_nil)) ?_
  simp [Place.Permits, J.commonCertificateExtensionFields, JFields.Writes, CommonCertificateExtension.toP, nem_string, nem_bomReference, nem_option, nem_pslice, and_assoc]

theorem excl_customCertificateExtension (v : Int) (x : CustomCertificateExtension) : ExclC v (.place .certificateExtension) J.customCertificateExtension x True := by
  refine ExclC.congr (excl_struct (
    exclF_plain (some .str) rfl (exf_plain rfl) <|
    exclF_plain (some .str) rfl (exf_plain rfl) <|
    exclF_nil)) ?_
  simp [Place.Permits, J.customCertificateExtensionFields, JFields.Writes, CustomCertificateExtension.toP, nem_string, nem_bomReference, nem_option, nem_pslice, and_assoc]

theorem excl_certificateExtension (v : Int) (x : CertificateExtension) :
    ExclC v (.place .certificateExtension) J.certificateExtension x True := by
  intro j hj
  obtain ⟨a, b⟩ := x
  cases a <;> cases b <;> simp only [J.certificateExtension] at hj
  · simp only [Option.some.injEq] at hj; subst hj
    simp [exclusive_place, Place.Permits]
  · exact excl_customCertificateExtension v _ j hj
  · exact excl_commonCertificateExtension v _ j hj
  · cases hj


theorem excl_certificateProperties (v : Int) (x : CertificateProperties) : ExclC v (.place .certificateProperties) J.certificateProperties x True := by
  refine ExclC.congr (excl_struct (
    exclF_plain (some (.since SpecVersion1_7 .str)) rfl (exf_plain rfl) <|
    exclF_plain (some .str) rfl (exf_plain rfl) <|
    exclF_plain (some .str) rfl (exf_plain rfl) <|
    exclF_plain (some .str) rfl (exf_plain rfl) <|
    exclF_plain (some .str) rfl (exf_plain rfl) <|
    exclF_plain (some .str) rfl (exf_plain rfl) <|
    exclF_plain (some .str) rfl (exf_plain rfl) <|
    exclF_plain (some .str) rfl (exf_plain rfl) <|
    exclF_plain (some .str) rfl (exf_plain rfl) <|
    exclF_plain (some (.since SpecVersion1_7 .str)) rfl (exf_plain rfl) <|
    exclF_plain (some (.since SpecVersion1_7 (.place .hash))) rfl (exf_since (exf_opt_true (fun a _ => excl_hash v a))) <|
    exclF_plain (some (.since SpecVersion1_7 (.list (.place .certificateState)))) rfl (exf_since (exf_list_true (fun _ => trivial) (fun a _ => excl_certificateState v a))) <|
    exclF_plain (some (.since SpecVersion1_7 (.list (.place .certificateExtension)))) rfl (exf_since (exf_list_true (fun _ => trivial) (fun a _ => excl_certificateExtension v a))) <|
    exclF_plain (some (.since SpecVersion1_7 (.list (.place .relatedCryptographicAsset)))) rfl (exf_since (exf_list_true (fun _ => trivial) (fun a _ => excl_relatedCryptographicAsset v a))) <|
    exclF_plain (some (.since SpecVersion1_7 .str)) rfl (exf_plain rfl) <|
    exclF_plain (some (.since SpecVersion1_7 .str)) rfl (exf_plain rfl) <|
    exclF_plain (some (.since SpecVersion1_7 .str)) rfl (exf_plain rfl) <|
    exclF_plain (some (.since SpecVersion1_7 .str)) rfl (exf_plain rfl) <|
    exclF_plain (some (.since SpecVersion1_7 .str)) rfl (exf_plain rfl) <|
    exclF_nil)) ?_
  simp [Place.Permits, ]

theorem excl_cryptoAlgorithmProperties (v : Int) (x : CryptoAlgorithmProperties) : ExclC v (.place .algorithmProperties) J.cryptoAlgorithmProperties x True := by
  refine ExclC.congr (excl_struct (
    exclF_plain (some .str) rfl (exf_plain rfl) <|
    exclF_plain (some .str) rfl (exf_plain rfl) <|
    exclF_plain (some (.since SpecVersion1_7 .str)) rfl (exf_plain rfl) <|
    exclF_plain (some .str) rfl (exf_plain rfl) <|
    exclF_plain (some (.since SpecVersion1_7 .str)) rfl (exf_plain rfl) <|
    exclF_plain (some .str) rfl (exf_plain rfl) <|
    exclF_plain (some .str) rfl (exf_plain rfl) <|
    exclF_plain (some (.list .str)) rfl (exf_plain rfl) <|
    exclF_plain (some .str) rfl (exf_plain rfl) <|
    exclF_plain (some .str) rfl (exf_plain rfl) <|
    exclF_plain (some (.list .str)) rfl (exf_plain rfl) <|
    exclF_plain (some .int) rfl (exf_plain rfl) <|
    exclF_plain (some .int) rfl (exf_plain rfl) <|
    exclF_nil)) ?_
  simp [Place.Permits, ]

theorem excl_cipherSuite (v : Int) (x : CipherSuite) : ExclC v (.place .cipherSuite) J.cipherSuite x True := by
  refine ExclC.congr (excl_struct (
    exclF_plain (some .str) rfl (exf_plain rfl) <|
    exclF_plain (some (.list .str)) rfl (exf_plain rfl) <|
    exclF_plain (some (.list .str)) rfl (exf_plain rfl) <|
    exclF_plain (some (.since SpecVersion1_7 (.list .str))) rfl (exf_plain rfl) <|
    exclF_plain (some (.since SpecVersion1_7 (.list .str))) rfl (exf_plain rfl) <|
    exclF_nil)) ?_
  simp [Place.Permits, ]

theorem excl_ikev2Auth (v : Int) (x : IKEv2Auth) :
    ExclC v (.alt .str (.since SpecVersion1_7 (.place .ikeV2Auth))) J.ikev2Auth x True := by
  refine excl_ike (ExclC.congr (excl_struct (
    exclF_skip <|
    exclF_plain (some .str) rfl (exf_plain rfl) <|
    exclF_plain (some .str) rfl (exf_plain rfl) <|
    exclF_nil)) ?_)
  simp [Place.Permits]

theorem excl_ikev2Enc (v : Int) (x : IKEv2Enc) :
    ExclC v (.alt .str (.since SpecVersion1_7 (.place .ikeV2Enc))) J.ikev2Enc x True := by
  refine excl_ike (ExclC.congr (excl_struct (
    exclF_skip <|
    exclF_plain (some .str) rfl (exf_plain rfl) <|
    exclF_plain (some .int) rfl (exf_plain rfl) <|
    exclF_plain (some .str) rfl (exf_plain rfl) <|
    exclF_nil)) ?_)
  simp [Place.Permits]

theorem excl_ikev2Integ (v : Int) (x : IKEv2Integ) :
    ExclC v (.alt .str (.since SpecVersion1_7 (.place .ikeV2Integ))) J.ikev2Integ x True := by
  refine excl_ike (ExclC.congr (excl_struct (
    exclF_skip <|
    exclF_plain (some .str) rfl (exf_plain rfl) <|
    exclF_plain (some .str) rfl (exf_plain rfl) <|
    exclF_nil)) ?_)
  simp [Place.Permits]

theorem excl_ikev2Ke (v : Int) (x : IKEv2Ke) :
    ExclC v (.alt .str (.since SpecVersion1_7 (.place .ikeV2Ke))) J.ikev2Ke x True := by
  refine excl_ike (ExclC.congr (excl_struct (
    exclF_skip <|
    exclF_plain (some .int) rfl (exf_plain rfl) <|
    exclF_plain (some .str) rfl (exf_plain rfl) <|
    exclF_nil)) ?_)
  simp [Place.Permits]

theorem excl_ikev2Prf (v : Int) (x : IKEv2Prf) :
    ExclC v (.alt .str (.since SpecVersion1_7 (.place .ikeV2Prf))) J.ikev2Prf x True := by
  refine excl_ike (ExclC.congr (excl_struct (
    exclF_skip <|
    exclF_plain (some .str) rfl (exf_plain rfl) <|
    exclF_plain (some .str) rfl (exf_plain rfl) <|
    exclF_nil)) ?_)
  simp [Place.Permits]

theorem excl_ikev2TransformTypes (v : Int) (x : IKEv2TransformTypes) : ExclC v (.place .ikev2TransformTypes) J.ikev2TransformTypes x True := by
  refine ExclC.congr (excl_struct (
    exclF_plain (some (.list (.alt .str (.since SpecVersion1_7 (.place .ikeV2Enc))))) rfl (exf_list_true (fun _ => trivial) (fun a _ => excl_ikev2Enc v a)) <|
    exclF_plain (some (.list (.alt .str (.since SpecVersion1_7 (.place .ikeV2Prf))))) rfl (exf_list_true (fun _ => trivial) (fun a _ => excl_ikev2Prf v a)) <|
    exclF_plain (some (.list (.alt .str (.since SpecVersion1_7 (.place .ikeV2Integ))))) rfl (exf_list_true (fun _ => trivial) (fun a _ => excl_ikev2Integ v a)) <|
    exclF_plain (some (.list (.alt .str (.since SpecVersion1_7 (.place .ikeV2Ke))))) rfl (exf_list_true (fun _ => trivial) (fun a _ => excl_ikev2Ke v a)) <|
    exclF_plain (some .bool) rfl (exf_plain rfl) <|
    exclF_plain (some (.list (.alt .str (.since SpecVersion1_7 (.place .ikeV2Auth))))) rfl (exf_list_true (fun _ => trivial) (fun a _ => excl_ikev2Auth v a)) <|
    exclF_nil)) ?_
  simp [Place.Permits, ]

theorem excl_cryptoProtocolProperties (v : Int) (x : CryptoProtocolProperties) : ExclC v (.place .protocolProperties) J.cryptoProtocolProperties x True := by
  refine ExclC.congr (excl_struct (
    exclF_plain (some .str) rfl (exf_plain rfl) <|
    exclF_plain (some .str) rfl (exf_plain rfl) <|
    exclF_plain (some (.list (.place .cipherSuite))) rfl (exf_list_true (fun _ => trivial) (fun a _ => excl_cipherSuite v a)) <|
    exclF_plain (some (.place .ikev2TransformTypes)) rfl (exf_opt_true (fun a _ => excl_ikev2TransformTypes v a)) <|
    exclF_plain (some (.list .str)) rfl (exf_plain rfl) <|
    exclF_plain (some (.since SpecVersion1_7 (.list (.place .relatedCryptographicAsset)))) rfl (exf_since (exf_list_true (fun _ => trivial) (fun a _ => excl_relatedCryptographicAsset v a))) <|
    exclF_nil)) ?_
  simp [Place.Permits, ]

theorem excl_securedBy (v : Int) (x : SecuredBy) : ExclC v (.place .securedBy) J.securedBy x True := by
  refine ExclC.congr (excl_struct (
    exclF_plain (some .str) rfl (exf_plain rfl) <|
    exclF_plain (some .str) rfl (exf_plain rfl) <|
    exclF_nil)) ?_
  simp [Place.Permits, ]

theorem excl_relatedCryptoMaterialProperties (v : Int) (x : RelatedCryptoMaterialProperties) : ExclC v (.place .relatedCryptoMaterialProperties) J.relatedCryptoMaterialProperties x True := by
  refine ExclC.congr (excl_struct (
    exclF_plain (some .str) rfl (exf_plain rfl) <|
    exclF_plain (some .str) rfl (exf_plain rfl) <|
    exclF_plain (some .str) rfl (exf_plain rfl) <|
    exclF_plain (some .str) rfl (exf_plain rfl) <|
    exclF_plain (some .str) rfl (exf_plain rfl) <|
    exclF_plain (some .str) rfl (exf_plain rfl) <|
    exclF_plain (some .str) rfl (exf_plain rfl) <|
    exclF_plain (some .str) rfl (exf_plain rfl) <|
    exclF_plain (some .str) rfl (exf_plain rfl) <|
    exclF_plain (some .int) rfl (exf_plain rfl) <|
    exclF_plain (some .str) rfl (exf_plain rfl) <|
    exclF_plain (some (.place .securedBy)) rfl (exf_opt_true (fun a _ => excl_securedBy v a)) <|
    exclF_plain (some (.since SpecVersion1_7 (.place .hash))) rfl (exf_since (exf_opt_true (fun a _ => excl_hash v a))) <|
    exclF_plain (some (.since SpecVersion1_7 (.list (.place .relatedCryptographicAsset)))) rfl (exf_since (exf_list_true (fun _ => trivial) (fun a _ => excl_relatedCryptographicAsset v a))) <|
    exclF_nil)) ?_
  simp [Place.Permits, ]

theorem excl_cryptoProperties (v : Int) (x : CryptoProperties) : ExclC v (.place .cryptoProperties) J.cryptoProperties x True := by
  refine ExclC.congr (excl_struct (
    exclF_plain (some .str) rfl (exf_plain rfl) <|
    exclF_plain (some (.place .algorithmProperties)) rfl (exf_opt_true (fun a _ => excl_cryptoAlgorithmProperties v a)) <|
    exclF_plain (some (.place .certificateProperties)) rfl (exf_opt_true (fun a _ => excl_certificateProperties v a)) <|
    exclF_plain (some (.place .relatedCryptoMaterialProperties)) rfl (exf_opt_true (fun a _ => excl_relatedCryptoMaterialProperties v a)) <|
    exclF_plain (some (.place .protocolProperties)) rfl (exf_opt_true (fun a _ => excl_cryptoProtocolProperties v a)) <|
    exclF_plain (some .str) rfl (exf_plain rfl) <|
    exclF_nil)) ?_
  simp [Place.Permits, ]

theorem excl_callstackFrame (v : Int) (x : CallstackFrame) : ExclC v (.place .componentEvidenceCallstackFrames) J.callstackFrame x True := by
  refine ExclC.congr (excl_struct (
    exclF_plain (some .str) rfl (exf_plain rfl) <|
    exclF_plain (some .str) rfl (exf_plain rfl) <|
    exclF_plain (some .str) rfl (exf_plain rfl) <|
    exclF_plain (some (.list .str)) rfl (exf_plain rfl) <|
    exclF_plain (some .int) rfl (exf_plain rfl) <|
    exclF_plain (some .int) rfl (exf_plain rfl) <|
    exclF_plain (some .str) rfl (exf_plain rfl) <|
    exclF_nil)) ?_
  simp [Place.Permits, ]

theorem excl_callstack (v : Int) (x : Callstack) : ExclC v (.place .componentEvidenceCallstack) J.callstack x True := by
  refine ExclC.congr (excl_struct (
    exclF_plain (some (.list (.place .componentEvidenceCallstackFrames))) rfl (exf_list_true (fun _ => trivial) (fun a _ => excl_callstackFrame v a)) <|
    exclF_nil)) ?_
  simp [Place.Permits, ]

theorem excl_copyright (v : Int) (x : Copyright) : ExclC v (.place .copyright) J.copyright x True := by
  refine ExclC.congr (excl_struct (
    exclF_plain (some .str) rfl (exf_plain rfl) <|
    exclF_nil)) ?_
  simp [Place.Permits, ]

theorem excl_evidenceIdentityMethod (v : Int) (x : EvidenceIdentityMethod) : ExclC v (.place .componentIdentityEvidenceMethods) J.evidenceIdentityMethod x True := by
  refine ExclC.congr (excl_struct (
    exclF_plain (some .str) rfl (exf_plain rfl) <|
    exclF_plain (some .num) rfl (exf_plain rfl) <|
    exclF_plain (some .str) rfl (exf_plain rfl) <|
    exclF_nil)) ?_
  simp [Place.Permits, ]

theorem excl_evidenceIdentity (v : Int) (x : EvidenceIdentity) : ExclC v (.place .componentIdentityEvidence) J.evidenceIdentity x True := by
  refine ExclC.congr (excl_struct (
    exclF_plain (some .str) rfl (exf_plain rfl) <|
    exclF_plain (some .num) rfl (exf_plain rfl) <|
    exclF_plain (some (.since SpecVersion1_6 .str)) rfl (exf_plain rfl) <|
    exclF_plain (some (.list (.place .componentIdentityEvidenceMethods))) rfl (exf_list_true (fun _ => trivial) (fun a _ => excl_evidenceIdentityMethod v a)) <|
    exclF_plain (some (.list .str)) rfl (exf_plain rfl) <|
    exclF_nil)) ?_
  simp [Place.Permits, ]

theorem excl_evidenceIdentityChoice (v : Int) (x : EvidenceIdentityChoice) :
    ExclC v (.alt (.since SpecVersion1_6 (.list (.place .componentIdentityEvidence))) (.place .componentIdentityEvidence)) J.evidenceIdentityChoice x True := by
  intro j hj
  obtain ⟨a, p⟩ := x
  simp only [J.evidenceIdentityChoice] at hj
  rw [exclusive_alt, exclusive_since]
  cases a with
  | some i =>
    simp only at hj
    split at hj
    · cases hj
    · rename_i hp
      have hp : p = .nil := by cases p <;> simp_all [PSlice.isNil]
      subst hp
      obtain ⟨ms, rfl⟩ := struct_is_obj hj
      have := excl_evidenceIdentity v i _ hj
      simp [exclusive_list_obj, this, PSlice.elems]
  | none =>
    simp only at hj
    split at hj
    · have h := excl_list (s := .place .componentIdentityEvidence) (fun _ => trivial) (fun a _ => excl_evidenceIdentity v a) j hj
      have hn : HasExclusive v (.place .componentIdentityEvidence) j := by
        cases p with
        | list xs =>
          simp only [JCodec.pslice, Option.map_eq_some_iff] at hj
          obtain ⟨js, _, rfl⟩ := hj; exact exclusive_place_arr
        | _ =>
          simp only [JCodec.pslice, Option.some.injEq] at hj
          subst hj; exact exclusive_null _
      rw [h]
      simp [hn]
    · rename_i hp
      have hp : p = .nil := by cases p <;> simp_all [PSlice.isNil]
      simp only [Option.some.injEq] at hj
      subst hj hp
      simp [exclusive_null, PSlice.elems]


theorem excl_evidenceOccurrence (v : Int) (x : EvidenceOccurrence) : ExclC v (.place .componentEvidenceOccurrences) J.evidenceOccurrence x True := by
  refine ExclC.congr (excl_struct (
    exclF_plain (some .str) rfl (exf_plain rfl) <|
    exclF_plain (some .str) rfl (exf_plain rfl) <|
    exclF_plain (some (.since SpecVersion1_6 .int)) rfl (exf_plain rfl) <|
    exclF_plain (some (.since SpecVersion1_6 .int)) rfl (exf_plain rfl) <|
    exclF_plain (some (.since SpecVersion1_6 .str)) rfl (exf_plain rfl) <|
    exclF_plain (some (.since SpecVersion1_6 .str)) rfl (exf_plain rfl) <|
    exclF_nil)) ?_
  simp [Place.Permits, ]

theorem excl_organizationalEntityOrContact (v : Int) (x : OrganizationalEntityOrContact) : ExclC v (.place .organizationOrIndividual) J.organizationalEntityOrContact x (OrganizationalEntityOrContact.Exclusive v x) := by
  refine ExclC.congr (excl_struct (
    exclF_plain (some (.place .organizationalEntity)) rfl (exf_opt_true (fun a _ => excl_organizationalEntity v a)) <|
    exclF_plain (some (.place .organizationalContact)) rfl (exf_opt_true (fun a _ => excl_organizationalContact v a)) <|
    exclF_nil)) ?_
  simp [Place.Permits, OrganizationalEntityOrContact.Exclusive, J.organizationalEntityOrContactFields, JFields.Writes, OrganizationalEntityOrContact.toP, nem_string, nem_bomReference, nem_option, nem_pslice, and_assoc]

theorem excl_organizationalEntityOrContact_patentAssignee (v : Int) (x : OrganizationalEntityOrContact) : ExclC v (.place .patentAssignee) J.organizationalEntityOrContact x True := by
  refine ExclC.congr (excl_struct (
    exclF_plain none rfl (exf_none) <|
    exclF_plain none rfl (exf_none) <|
    exclF_nil)) ?_
  simp [Place.Permits, J.organizationalEntityOrContactFields, JFields.Writes, OrganizationalEntityOrContact.toP, nem_string, nem_bomReference, nem_option, nem_pslice, and_assoc]

theorem excl_licensing (v : Int) (x : Licensing) : ExclC v (.place .licensing) J.licensing x (Licensing.Exclusive v x) := by
  refine ExclC.congr (excl_struct (
    exclF_plain (some (.list .str)) rfl (exf_plain rfl) <|
    exclF_field (some (.place .organizationOrIndividual)) rfl (exf_opt (fun a _ => excl_organizationalEntityOrContact v a)) <|
    exclF_field (some (.place .organizationOrIndividual)) rfl (exf_opt (fun a _ => excl_organizationalEntityOrContact v a)) <|
    exclF_field (some (.place .organizationOrIndividual)) rfl (exf_opt (fun a _ => excl_organizationalEntityOrContact v a)) <|
    exclF_plain (some .str) rfl (exf_plain rfl) <|
    exclF_plain (some (.list .str)) rfl (exf_plain rfl) <|
    exclF_plain (some .str) rfl (exf_plain rfl) <|
    exclF_plain (some .str) rfl (exf_plain rfl) <|
    exclF_nil)) ?_
  simp [Place.Permits, Licensing.Exclusive, Licensing.toP]

theorem excl_license (v : Int) (x : License) : ExclC v (.place .license) J.license x (x.Exclusive v) := by
  suffices h : ExclC v (.place .license) J.licenseAlias x (x.Exclusive v) by
    intro j hj
    simp only [J.license] at hj
    split at hj
    · cases hj
    · split at hj
      · cases hj
      · exact h j hj
  refine ExclC.congr (excl_struct (
    exclF_plain (some (.since SpecVersion1_5 .str)) rfl (exf_plain rfl) <|
    exclF_plain (some .str) rfl (exf_plain rfl) <|
    exclF_plain (some .str) rfl (exf_plain rfl) <|
    exclF_plain (some (.since SpecVersion1_6 .str)) rfl (exf_plain rfl) <|
    exclF_plain (some (.place .attachment)) rfl (exf_opt_true (fun a _ => excl_attachedText v a)) <|
    exclF_plain (some .str) rfl (exf_plain rfl) <|
    exclF_field (some (.since SpecVersion1_5 (.place .licensing))) rfl (exf_since (exf_opt (fun a _ => excl_licensing v a))) <|
    exclF_plain (some (.since SpecVersion1_5 (.list (.place .property)))) rfl (exf_since (exf_list_true (fun _ => trivial) (fun a _ => excl_property v a))) <|
    exclF_nil)) ?_
  simp [Place.Permits, License.Exclusive, License.toP, J.licenseFields, JFields.Writes, nem_string, nem_bomReference, nem_option, nem_pslice]


theorem excl_licenseExpressionDetail (v : Int) (x : LicenseExpressionDetail) : ExclC v (.place .expressionDetail) J.licenseExpressionDetail x True := by
  refine ExclC.congr (excl_struct (
    exclF_plain (some .str) rfl (exf_plain rfl) <|
    exclF_plain (some .str) rfl (exf_plain rfl) <|
    exclF_plain (some (.place .attachment)) rfl (exf_opt_true (fun a _ => excl_attachedText v a)) <|
    exclF_plain (some .str) rfl (exf_plain rfl) <|
    exclF_nil)) ?_
  simp [Place.Permits, ]

theorem excl_licenseChoice (v : Int) (x : LicenseChoice) : ExclC v (.place .licenseChoice) J.licenseChoice x (LicenseChoice.Exclusive v x) := by
  refine ExclC.congr (excl_struct (
    exclF_field (some (.place .license)) rfl (exf_opt (fun a _ => excl_license v a)) <|
    exclF_plain (some .str) rfl (exf_plain rfl) <|
    exclF_plain (some (.since SpecVersion1_7 (.list (.place .expressionDetail)))) rfl (exf_since (exf_list_true (fun _ => trivial) (fun a _ => excl_licenseExpressionDetail v a))) <|
    exclF_plain (some (.since SpecVersion1_6 .str)) rfl (exf_plain rfl) <|
    exclF_plain (some (.since SpecVersion1_6 .str)) rfl (exf_plain rfl) <|
    exclF_field (some (.since SpecVersion1_7 (.place .licensing))) rfl (exf_since (exf_opt (fun a _ => excl_licensing v a))) <|
    exclF_plain (some (.since SpecVersion1_7 (.list (.place .property)))) rfl (exf_since (exf_list_true (fun _ => trivial) (fun a _ => excl_property v a))) <|
    exclF_nil)) ?_
  simp [Place.Permits, LicenseChoice.Exclusive, J.licenseChoiceFields, JFields.Writes, LicenseChoice.toP, nem_string, nem_bomReference, nem_option, nem_pslice, and_assoc]

theorem licenseChoice_hasExpression {x : LicenseChoice} {j : Json} (h : J.licenseChoice.enc x = some j) :
    j.HasMember "expression" ↔ x.expression ≠ "" := by
  simp only [J.licenseChoice, JCodec.struct, Option.map_eq_some_iff] at h
  obtain ⟨ms, hm, rfl⟩ := h
  simp only [Json.HasMember]
  rw [has_iff _ _ hm]
  simp [J.licenseChoiceFields, JFields.Writes, LicenseChoice.toP, nem_string]

theorem licenses_expressions : ∀ {xs : List LicenseChoice} {js : List Json},
    JCodec.encList J.licenseChoice xs = some js → js.length = xs.length ∧
      ((∀ j ∈ js, ¬ j.HasMember "expression") ↔ ∀ y ∈ xs, y.expression = "")
  | [], js, h => by
    simp only [JCodec.encList, Option.some.injEq] at h
    subst h
    simp
  | x :: xs, js, h => by
    simp only [JCodec.encList] at h
    cases hc : J.licenseChoice.enc x with
    | none => simp [hc] at h
    | some j =>
      simp only [hc, Option.map_eq_some_iff] at h
      obtain ⟨js', h', rfl⟩ := h
      have ih := licenses_expressions h'
      simp only [List.mem_cons, forall_eq_or_imp, List.length_cons, ih.1, ih.2, licenseChoice_hasExpression hc]
      simp

theorem exf_licenses {v : Int} {oe : Bool} {p : PSlice LicenseChoice} :
    FieldExcl v (some (.list (.place .licenseChoice))) oe (JCodec.pslice J.licenseChoice) p
      (LicensesExclusive v p) := by
  simp only [FieldExcl]
  split
  · rename_i he
    rw [Bool.and_eq_true] at he
    cases p <;> simp_all [JCodec.pslice, PSlice.isNil, PSlice.elems, LicensesExclusive]
  · intro j hj
    simp only [Option.some.injEq, forall_eq']
    cases p with
    | nil =>
      simp only [JCodec.pslice, Option.some.injEq] at hj
      subst hj
      simp [exclusive_null, PSlice.elems, LicensesExclusive]
    | nilSlice =>
      simp only [JCodec.pslice, Option.some.injEq] at hj
      subst hj
      simp [exclusive_null, PSlice.elems, LicensesExclusive]
    | list xs =>
      simp only [JCodec.pslice, Option.map_eq_some_iff] at hj
      obtain ⟨js, h', rfl⟩ := hj
      have hl := licenses_expressions h'
      simp only [PSlice.elems, LicensesExclusive]
      rw [exclusive_list, exclC_encList (fun a _ => excl_licenseChoice v a) h']
      simp only [Sch.Uniform, hl.1, hl.2]


theorem excl_evidence (v : Int) (x : Evidence) : ExclC v (.place .componentEvidence) J.evidence x (Evidence.Exclusive v x) := by
  refine ExclC.congr (excl_struct (
    exclF_plain (some (.since SpecVersion1_5 (.alt (.since SpecVersion1_6 (.list (.place .componentIdentityEvidence))) (.place .componentIdentityEvidence)))) rfl (exf_since (exf_opt_true (fun a _ => excl_evidenceIdentityChoice v a))) <|
    exclF_plain (some (.since SpecVersion1_5 (.list (.place .componentEvidenceOccurrences)))) rfl (exf_since (exf_list_true (fun _ => trivial) (fun a _ => excl_evidenceOccurrence v a))) <|
    exclF_plain (some (.since SpecVersion1_5 (.place .componentEvidenceCallstack))) rfl (exf_since (exf_opt_true (fun a _ => excl_callstack v a))) <|
    exclF_field (some (.list (.place .licenseChoice))) rfl (exf_licenses) <|
    exclF_plain (some (.list (.place .copyright))) rfl (exf_list_true (fun _ => trivial) (fun a _ => excl_copyright v a)) <|
    exclF_nil)) ?_
  simp [Place.Permits, Evidence.Exclusive, Evidence.toP]

theorem excl_externalReference (v : Int) (x : ExternalReference) : ExclC v (.place .externalReference) J.externalReference x True := by
  refine ExclC.congr (excl_struct (
    exclF_plain (some .str) rfl (exf_plain rfl) <|
    exclF_plain (some .str) rfl (exf_plain rfl) <|
    exclF_plain (some (.since SpecVersion1_3 (.list (.place .hash)))) rfl (exf_since (exf_list_true (fun _ => trivial) (fun a _ => excl_hash v a))) <|
    exclF_plain (some .str) rfl (exf_plain rfl) <|
    exclF_plain (some (.since SpecVersion1_7 (.list (.place .property)))) rfl (exf_since (exf_list_true (fun _ => trivial) (fun a _ => excl_property v a))) <|
    exclF_nil)) ?_
  simp [Place.Permits, ]

theorem excl_jsfPublicKey (v : Int) (x : JSFPublicKey) : ExclC v (.place .publicKey) J.jsfPublicKey x True := by
  refine ExclC.congr (excl_struct (
    exclF_plain (some .str) rfl (exf_plain rfl) <|
    exclF_plain (some .str) rfl (exf_plain rfl) <|
    exclF_plain (some .str) rfl (exf_plain rfl) <|
    exclF_plain (some .str) rfl (exf_plain rfl) <|
    exclF_plain (some .str) rfl (exf_plain rfl) <|
    exclF_plain (some .str) rfl (exf_plain rfl) <|
    exclF_nil)) ?_
  simp [Place.Permits, ]

theorem excl_jsfSigner (v : Int) (x : JSFSigner) : ExclC v (.place .signer) J.jsfSigner x True := by
  refine ExclC.congr (excl_struct (
    exclF_plain (some .str) rfl (exf_plain rfl) <|
    exclF_plain (some .str) rfl (exf_plain rfl) <|
    exclF_plain (some (.place .publicKey)) rfl (exf_val (excl_jsfPublicKey v _)) <|
    exclF_plain (some (.list .str)) rfl (exf_plain rfl) <|
    exclF_plain (some (.list .str)) rfl (exf_plain rfl) <|
    exclF_plain (some .str) rfl (exf_plain rfl) <|
    exclF_nil)) ?_
  simp [Place.Permits, ]

theorem excl_jsfSignature (v : Int) (x : JSFSignature) : ExclC v (.place .signature) J.jsfSignature x (JSFSignature.Exclusive v x) := by
  refine ExclC.congr (excl_struct (
    exclF_skip <|
    exclF_plain (some (.list (.place .signer))) rfl (exf_list_true (fun _ => trivial) (fun a _ => excl_jsfSigner v a)) <|
    exclF_plain (some (.list (.place .signer))) rfl (exf_list_true (fun _ => trivial) (fun a _ => excl_jsfSigner v a)) <|
    exclF_nil)) ?_
  simp [Place.Permits, JSFSignature.Exclusive, J.jsfSignatureFields, JFields.Writes, JSFSignature.toP, nem_string, nem_bomReference, nem_option, nem_pslice, and_assoc]

theorem excl_mlModelCO2Measure (v : Int) (x : MLModelCO2Measure) : ExclC v (.place .co2Measure) J.mlModelCO2Measure x True := by
  refine ExclC.congr (excl_struct (
    exclF_plain (some .num) rfl (exf_plain rfl) <|
    exclF_plain (some .str) rfl (exf_plain rfl) <|
    exclF_nil)) ?_
  simp [Place.Permits, ]

theorem excl_mlModelEnergyMeasure (v : Int) (x : MLModelEnergyMeasure) : ExclC v (.place .energyMeasure) J.mlModelEnergyMeasure x True := by
  refine ExclC.congr (excl_struct (
    exclF_plain (some .num) rfl (exf_plain rfl) <|
    exclF_plain (some .str) rfl (exf_plain rfl) <|
    exclF_nil)) ?_
  simp [Place.Permits, ]

theorem excl_mlModelEnergyProvider (v : Int) (x : MLModelEnergyProvider) : ExclC v (.place .energyProvider) J.mlModelEnergyProvider x True := by
  refine ExclC.congr (excl_struct (
    exclF_plain (some .str) rfl (exf_plain rfl) <|
    exclF_plain (some .str) rfl (exf_plain rfl) <|
    exclF_plain (some (.place .organizationalEntity)) rfl (exf_opt_true (fun a _ => excl_organizationalEntity v a)) <|
    exclF_plain (some .str) rfl (exf_plain rfl) <|
    exclF_plain (some (.place .energyMeasure)) rfl (exf_opt_true (fun a _ => excl_mlModelEnergyMeasure v a)) <|
    exclF_plain (some (.list (.place .externalReference))) rfl (exf_list_true (fun _ => trivial) (fun a _ => excl_externalReference v a)) <|
    exclF_nil)) ?_
  simp [Place.Permits, ]

theorem excl_mlModelEnergyConsumption (v : Int) (x : MLModelEnergyConsumption) : ExclC v (.place .energyConsumption) J.mlModelEnergyConsumption x True := by
  refine ExclC.congr (excl_struct (
    exclF_plain (some .str) rfl (exf_plain rfl) <|
    exclF_plain (some (.list (.place .energyProvider))) rfl (exf_list_true (fun _ => trivial) (fun a _ => excl_mlModelEnergyProvider v a)) <|
    exclF_plain (some (.place .energyMeasure)) rfl (exf_val (excl_mlModelEnergyMeasure v _)) <|
    exclF_plain (some (.place .co2Measure)) rfl (exf_opt_true (fun a _ => excl_mlModelCO2Measure v a)) <|
    exclF_plain (some (.place .co2Measure)) rfl (exf_opt_true (fun a _ => excl_mlModelCO2Measure v a)) <|
    exclF_plain (some (.list (.place .property))) rfl (exf_list_true (fun _ => trivial) (fun a _ => excl_property v a)) <|
    exclF_nil)) ?_
  simp [Place.Permits, ]

theorem excl_mlModelCardEnvironmentalConsiderations (v : Int) (x : MLModelCardEnvironmentalConsiderations) : ExclC v (.place .environmentalConsiderations) J.mlModelCardEnvironmentalConsiderations x True := by
  refine ExclC.congr (excl_struct (
    exclF_plain (some (.list (.place .energyConsumption))) rfl (exf_list_true (fun _ => trivial) (fun a _ => excl_mlModelEnergyConsumption v a)) <|
    exclF_plain (some (.list (.place .property))) rfl (exf_list_true (fun _ => trivial) (fun a _ => excl_property v a)) <|
    exclF_nil)) ?_
  simp [Place.Permits, ]

theorem excl_mlModelCardEthicalConsideration (v : Int) (x : MLModelCardEthicalConsideration) : ExclC v (.place .risk) J.mlModelCardEthicalConsideration x True := by
  refine ExclC.congr (excl_struct (
    exclF_plain (some .str) rfl (exf_plain rfl) <|
    exclF_plain (some .str) rfl (exf_plain rfl) <|
    exclF_nil)) ?_
  simp [Place.Permits, ]

theorem excl_mlModelCardFairnessAssessment (v : Int) (x : MLModelCardFairnessAssessment) : ExclC v (.place .fairnessAssessment) J.mlModelCardFairnessAssessment x True := by
  refine ExclC.congr (excl_struct (
    exclF_plain (some .str) rfl (exf_plain rfl) <|
    exclF_plain (some .str) rfl (exf_plain rfl) <|
    exclF_plain (some .str) rfl (exf_plain rfl) <|
    exclF_plain (some .str) rfl (exf_plain rfl) <|
    exclF_nil)) ?_
  simp [Place.Permits, ]

theorem excl_mlModelCardConsiderations (v : Int) (x : MLModelCardConsiderations) : ExclC v (.place .modelCardConsiderations) J.mlModelCardConsiderations x True := by
  refine ExclC.congr (excl_struct (
    exclF_plain (some (.list .str)) rfl (exf_plain rfl) <|
    exclF_plain (some (.list .str)) rfl (exf_plain rfl) <|
    exclF_plain (some (.list .str)) rfl (exf_plain rfl) <|
    exclF_plain (some (.list .str)) rfl (exf_plain rfl) <|
    exclF_plain (some (.list (.place .risk))) rfl (exf_list_true (fun _ => trivial) (fun a _ => excl_mlModelCardEthicalConsideration v a)) <|
    exclF_plain (some (.since SpecVersion1_6 (.place .environmentalConsiderations))) rfl (exf_since (exf_opt_true (fun a _ => excl_mlModelCardEnvironmentalConsiderations v a))) <|
    exclF_plain (some (.list (.place .fairnessAssessment))) rfl (exf_list_true (fun _ => trivial) (fun a _ => excl_mlModelCardFairnessAssessment v a)) <|
    exclF_nil)) ?_
  simp [Place.Permits, ]

theorem excl_mlDatasetChoice (v : Int) (x : MLDatasetChoice) :
    ExclC v (.place .modelDataset) J.mlDatasetChoice x (x.Exclusive v) := by
  intro j hj
  simp only [J.mlDatasetChoice] at hj
  split at hj
  · rename_i hr
    simp only [Option.some.injEq] at hj
    subst hj
    simp only [MLDatasetChoice.Exclusive, hr, false_implies, iff_true, exclusive_place, List.mem_singleton, forall_eq]
    refine ⟨by simp [Place.Permits], fun s hs => ?_⟩
    cases hs
    exact .str _
  · rename_i hr
    have hr : x.ref = "" := by simpa using hr
    simp only [MLDatasetChoice.Exclusive, hr, true_implies]
    cases hd : x.componentData with
    | none =>
      simp only [hd, Option.some.injEq] at hj; subst hj; simp [exclusive_place, Place.Permits]
    | some d =>
      simp only [hd] at hj
      simpa using excl_componentData_modelDataset v d j hj


theorem excl_mlInputOutputParameters (v : Int) (x : MLInputOutputParameters) : ExclC v (.place .inputOutputMLParameters) J.mlInputOutputParameters x True := by
  refine ExclC.congr (excl_struct (
    exclF_plain (some .str) rfl (exf_plain rfl) <|
    exclF_nil)) ?_
  simp [Place.Permits, ]

theorem excl_mlModelParametersApproach (v : Int) (x : MLModelParametersApproach) : ExclC v (.place .modelCardModelParametersApproach) J.mlModelParametersApproach x True := by
  refine ExclC.congr (excl_struct (
    exclF_plain (some .str) rfl (exf_plain rfl) <|
    exclF_nil)) ?_
  simp [Place.Permits, ]

theorem excl_mlModelParameters (v : Int) (x : MLModelParameters) : ExclC v (.place .modelCardModelParameters) J.mlModelParameters x (MLModelParameters.Exclusive v x) := by
  refine ExclC.congr (excl_struct (
    exclF_plain (some (.place .modelCardModelParametersApproach)) rfl (exf_opt_true (fun a _ => excl_mlModelParametersApproach v a)) <|
    exclF_plain (some .str) rfl (exf_plain rfl) <|
    exclF_plain (some .str) rfl (exf_plain rfl) <|
    exclF_plain (some .str) rfl (exf_plain rfl) <|
    exclF_field (some (.list (.place .modelDataset))) rfl (exf_list (fun _ => trivial) (fun a _ => excl_mlDatasetChoice v a)) <|
    exclF_plain (some (.list (.place .inputOutputMLParameters))) rfl (exf_list_true (fun _ => trivial) (fun a _ => excl_mlInputOutputParameters v a)) <|
    exclF_plain (some (.list (.place .inputOutputMLParameters))) rfl (exf_list_true (fun _ => trivial) (fun a _ => excl_mlInputOutputParameters v a)) <|
    exclF_nil)) ?_
  simp [Place.Permits, MLModelParameters.Exclusive, MLModelParameters.toP]

theorem excl_mlPerformanceMetricConfidenceInterval (v : Int) (x : MLPerformanceMetricConfidenceInterval) : ExclC v (.place .performanceMetricConfidenceInterval) J.mlPerformanceMetricConfidenceInterval x True := by
  refine ExclC.congr (excl_struct (
    exclF_plain (some .str) rfl (exf_plain rfl) <|
    exclF_plain (some .str) rfl (exf_plain rfl) <|
    exclF_nil)) ?_
  simp [Place.Permits, ]

theorem excl_mlPerformanceMetric (v : Int) (x : MLPerformanceMetric) : ExclC v (.place .performanceMetric) J.mlPerformanceMetric x True := by
  refine ExclC.congr (excl_struct (
    exclF_plain (some .str) rfl (exf_plain rfl) <|
    exclF_plain (some .str) rfl (exf_plain rfl) <|
    exclF_plain (some .str) rfl (exf_plain rfl) <|
    exclF_plain (some (.place .performanceMetricConfidenceInterval)) rfl (exf_opt_true (fun a _ => excl_mlPerformanceMetricConfidenceInterval v a)) <|
    exclF_nil)) ?_
  simp [Place.Permits, ]

theorem excl_mlQuantitativeAnalysis (v : Int) (x : MLQuantitativeAnalysis) : ExclC v (.place .modelCardQuantitativeAnalysis) J.mlQuantitativeAnalysis x True := by
  refine ExclC.congr (excl_struct (
    exclF_plain (some (.list (.place .performanceMetric))) rfl (exf_list_true (fun _ => trivial) (fun a _ => excl_mlPerformanceMetric v a)) <|
    exclF_plain (some (.place .graphicsCollection)) rfl (exf_opt_true (fun a _ => excl_componentDataGraphics v a)) <|
    exclF_nil)) ?_
  simp [Place.Permits, ]

theorem excl_mlModelCard (v : Int) (x : MLModelCard) : ExclC v (.place .modelCard) J.mlModelCard x (MLModelCard.Exclusive v x) := by
  refine ExclC.congr (excl_struct (
    exclF_plain (some .str) rfl (exf_plain rfl) <|
    exclF_field (some (.place .modelCardModelParameters)) rfl (exf_opt (fun a _ => excl_mlModelParameters v a)) <|
    exclF_plain (some (.place .modelCardQuantitativeAnalysis)) rfl (exf_opt_true (fun a _ => excl_mlQuantitativeAnalysis v a)) <|
    exclF_plain (some (.place .modelCardConsiderations)) rfl (exf_opt_true (fun a _ => excl_mlModelCardConsiderations v a)) <|
    exclF_nil)) ?_
  simp [Place.Permits, MLModelCard.Exclusive, MLModelCard.toP]

theorem excl_identifiableAction (v : Int) (x : IdentifiableAction) : ExclC v (.place .identifiableAction) J.identifiableAction x True := by
  refine ExclC.congr (excl_struct (
    exclF_plain (some .str) rfl (exf_plain rfl) <|
    exclF_plain (some .str) rfl (exf_plain rfl) <|
    exclF_plain (some .str) rfl (exf_plain rfl) <|
    exclF_nil)) ?_
  simp [Place.Permits, ]

theorem excl_commit (v : Int) (x : Commit) : ExclC v (.place .commit) J.commit x True := by
  refine ExclC.congr (excl_struct (
    exclF_plain (some .str) rfl (exf_plain rfl) <|
    exclF_plain (some .str) rfl (exf_plain rfl) <|
    exclF_plain (some (.place .identifiableAction)) rfl (exf_opt_true (fun a _ => excl_identifiableAction v a)) <|
    exclF_plain (some (.place .identifiableAction)) rfl (exf_opt_true (fun a _ => excl_identifiableAction v a)) <|
    exclF_plain (some .str) rfl (exf_plain rfl) <|
    exclF_nil)) ?_
  simp [Place.Permits, ]

theorem excl_diff (v : Int) (x : Diff) : ExclC v (.place .diff) J.diff x True := by
  refine ExclC.congr (excl_struct (
    exclF_plain (some (.place .attachment)) rfl (exf_opt_true (fun a _ => excl_attachedText v a)) <|
    exclF_plain (some .str) rfl (exf_plain rfl) <|
    exclF_nil)) ?_
  simp [Place.Permits, ]

theorem excl_source (v : Int) (x : Source) : ExclC v (.place .vulnerabilitySource) J.source x True := by
  refine ExclC.congr (excl_struct (
    exclF_plain (some .str) rfl (exf_plain rfl) <|
    exclF_plain (some .str) rfl (exf_plain rfl) <|
    exclF_nil)) ?_
  simp [Place.Permits, ]

theorem excl_source_issueSource (v : Int) (x : Source) : ExclC v (.place .issueSource) J.source x True := by
  refine ExclC.congr (excl_struct (
    exclF_plain (some .str) rfl (exf_plain rfl) <|
    exclF_plain (some .str) rfl (exf_plain rfl) <|
    exclF_nil)) ?_
  simp [Place.Permits, ]

theorem excl_issue (v : Int) (x : Issue) : ExclC v (.place .issue) J.issue x True := by
  refine ExclC.congr (excl_struct (
    exclF_plain (some .str) rfl (exf_plain rfl) <|
    exclF_plain (some .str) rfl (exf_plain rfl) <|
    exclF_plain (some .str) rfl (exf_plain rfl) <|
    exclF_plain (some (.place .issueSource)) rfl (exf_opt_true (fun a _ => excl_source_issueSource v a)) <|
    exclF_plain (some (.list .str)) rfl (exf_plain rfl) <|
    exclF_plain (some .str) rfl (exf_plain rfl) <|
    exclF_nil)) ?_
  simp [Place.Permits, ]

theorem excl_patch (v : Int) (x : Patch) : ExclC v (.place .patch) J.patch x True := by
  refine ExclC.congr (excl_struct (
    exclF_plain (some (.place .diff)) rfl (exf_opt_true (fun a _ => excl_diff v a)) <|
    exclF_plain (some (.list (.place .issue))) rfl (exf_list_true (fun _ => trivial) (fun a _ => excl_issue v a)) <|
    exclF_plain (some .str) rfl (exf_plain rfl) <|
    exclF_nil)) ?_
  simp [Place.Permits, ]

theorem excl_pedigreeWith (C : JCodec Component) (v : Int) (x : Pedigree Component)
    (h_ancestors : ∀ c ∈ x.ancestors.elems, ExclC v (.place .component) C c (c.Exclusive v))
    (h_descendants : ∀ c ∈ x.descendants.elems, ExclC v (.place .component) C c (c.Exclusive v))
    (h_variants : ∀ c ∈ x.variants.elems, ExclC v (.place .component) C c (c.Exclusive v)) :
    ExclC v (.place .componentPedigree) (J.pedigree C) x (ExclusivePedigree v x) := by
  refine ExclC.congr (excl_struct (
    exclF_field (some (.list (.place .component))) rfl (exf_list (fun _ => trivial) h_ancestors) <|
    exclF_field (some (.list (.place .component))) rfl (exf_list (fun _ => trivial) h_descendants) <|
    exclF_field (some (.list (.place .component))) rfl (exf_list (fun _ => trivial) h_variants) <|
    exclF_plain (some (.list (.place .commit))) rfl (exf_list_true (fun _ => trivial) (fun a _ => excl_commit v a)) <|
    exclF_plain (some (.list (.place .patch))) rfl (exf_list_true (fun _ => trivial) (fun a _ => excl_patch v a)) <|
    exclF_plain (some .str) rfl (exf_plain rfl) <|
    exclF_nil)) ?_
  cases x
  simp only [ExclusivePedigree, Pedigree.toP, exclusiveComponents_iff, and_true, and_assoc, Place.Permits, true_and]


theorem excl_note (v : Int) (x : Note) : ExclC v (.place .note) J.note x True := by
  refine ExclC.congr (excl_struct (
    exclF_plain (some .str) rfl (exf_plain rfl) <|
    exclF_plain (some (.place .attachment)) rfl (exf_val (excl_attachedText v _)) <|
    exclF_nil)) ?_
  simp [Place.Permits, ]

theorem excl_releaseNotes (v : Int) (x : ReleaseNotes) : ExclC v (.place .releaseNotes) J.releaseNotes x True := by
  refine ExclC.congr (excl_struct (
    exclF_plain (some .str) rfl (exf_plain rfl) <|
    exclF_plain (some .str) rfl (exf_plain rfl) <|
    exclF_plain (some .str) rfl (exf_plain rfl) <|
    exclF_plain (some .str) rfl (exf_plain rfl) <|
    exclF_plain (some .str) rfl (exf_plain rfl) <|
    exclF_plain (some .str) rfl (exf_plain rfl) <|
    exclF_plain (some (.list .str)) rfl (exf_plain rfl) <|
    exclF_plain (some (.list .str)) rfl (exf_plain rfl) <|
    exclF_plain (some (.list (.place .issue))) rfl (exf_list_true (fun _ => trivial) (fun a _ => excl_issue v a)) <|
    exclF_plain (some (.list (.place .note))) rfl (exf_list_true (fun _ => trivial) (fun a _ => excl_note v a)) <|
    exclF_plain (some (.list (.place .property))) rfl (exf_list_true (fun _ => trivial) (fun a _ => excl_property v a)) <|
    exclF_nil)) ?_
  simp [Place.Permits, ]

theorem excl_swid (v : Int) (x : SWID) : ExclC v (.place .swid) J.swid x True := by
  refine ExclC.congr (excl_struct (
    exclF_plain (some (.place .attachment)) rfl (exf_opt_true (fun a _ => excl_attachedText v a)) <|
    exclF_plain (some .str) rfl (exf_plain rfl) <|
    exclF_plain (some .str) rfl (exf_plain rfl) <|
    exclF_plain (some .str) rfl (exf_plain rfl) <|
    exclF_plain (some .str) rfl (exf_plain rfl) <|
    exclF_plain (some .int) rfl (exf_plain rfl) <|
    exclF_plain (some .bool) rfl (exf_plain rfl) <|
    exclF_nil)) ?_
  simp [Place.Permits, ]

theorem excl_asserterChoice (v : Int) (x : AsserterChoice) :
    ExclC v (.alt .str (.place .asserter)) J.asserterChoice x True := by
  intro j hj
  have hp : ∀ (k : String) (j : Json), Place.asserter.Permits v fun k' => ∃ m ∈ [(k, j)], m.1 = k' := by
    intro k j
    simp only [Place.Permits, List.mem_singleton, exists_eq_left]
    refine ⟨?_, ?_, ?_, ?_, ?_, ?_⟩ <;> rintro ⟨rfl, h⟩ <;> exact absurd h (by decide)
  have no : ∀ (k : String) (j : Json), Place.asserter.members.lookup k = none →
      HasExclusive v (.alt .str (.place .asserter)) (.obj [(k, j)]) := by
    intro k j hk
    rw [exclusive_alt, exclusive_place]
    refine ⟨.str _, hp k j, fun m hm s hs => ?_⟩
    rw [List.mem_singleton] at hm
    subst hm
    rw [hk] at hs
    cases hs
  obtain ⟨a, b, c⟩ := x
  refine iff_true_intro ?_
  cases a with
  | some o =>
    simp only [J.asserterChoice, Option.map_eq_some_iff] at hj
    obtain ⟨j', _, rfl⟩ := hj
    exact no "organization" j' rfl
  | none =>
    cases b with
    | some o =>
      simp only [J.asserterChoice, Option.map_eq_some_iff] at hj
      obtain ⟨j', _, rfl⟩ := hj
      exact no "individual" j' rfl
    | none =>
      cases c with
      | some o =>
        simp only [J.asserterChoice, Option.map_eq_some_iff] at hj
        obtain ⟨j', _, rfl⟩ := hj
        exact no "ref" j' rfl
      | none =>
        simp only [J.asserterChoice, Option.some.injEq] at hj
        subst hj
        exact .alt (.str _) (.place (by simp [Place.Permits]) (by simp))


theorem excl_patentAssertion (v : Int) (x : PatentAssertion) : ExclC v (.place .patentAssertion) J.patentAssertion x True := by
  refine ExclC.congr (excl_struct (
    exclF_plain (some .str) rfl (exf_plain rfl) <|
    exclF_plain (some (.list .str)) rfl (exf_plain rfl) <|
    exclF_plain (some .str) rfl (exf_plain rfl) <|
    exclF_plain (some (.alt .str (.place .asserter))) rfl (exf_opt_true (fun a _ => excl_asserterChoice v a)) <|
    exclF_plain (some .str) rfl (exf_plain rfl) <|
    exclF_nil)) ?_
  simp [Place.Permits, ]

theorem excl_componentWith (C : JCodec Component) (v : Int) (x : Component)
    (h_components : ∀ c ∈ x.components.elems, ExclC v (.place .component) C c (c.Exclusive v))
    (h_pedigree : ∀ p ∈ x.pedigree, ExclC v (.place .componentPedigree) (J.pedigree C) p (ExclusivePedigree v p)) :
    ExclC v (.place .component) (J.componentWith C) x (x.Exclusive v) := by
  refine ExclC.congr (excl_struct (
    exclF_plain (some .str) rfl (exf_plain rfl) <|
    exclF_plain (some .str) rfl (exf_plain rfl) <|
    exclF_plain (some .str) rfl (exf_plain rfl) <|
    exclF_plain (some (.place .organizationalEntity)) rfl (exf_opt_true (fun a _ => excl_organizationalEntity v a)) <|
    exclF_plain (some (.since SpecVersion1_6 (.place .organizationalEntity))) rfl (exf_since (exf_opt_true (fun a _ => excl_organizationalEntity v a))) <|
    exclF_plain (some .str) rfl (exf_plain rfl) <|
    exclF_plain (some (.since SpecVersion1_6 (.list (.place .organizationalContact)))) rfl (exf_since (exf_list_true (fun _ => trivial) (fun a _ => excl_organizationalContact v a))) <|
    exclF_plain (some .str) rfl (exf_plain rfl) <|
    exclF_plain (some .str) rfl (exf_plain rfl) <|
    exclF_plain (some .str) rfl (exf_plain rfl) <|
    exclF_plain (some .str) rfl (exf_plain rfl) <|
    exclF_plain (some .str) rfl (exf_plain rfl) <|
    exclF_plain (some .str) rfl (exf_plain rfl) <|
    exclF_plain (some (.list (.place .hash))) rfl (exf_list_true (fun _ => trivial) (fun a _ => excl_hash v a)) <|
    exclF_field (some (.list (.place .licenseChoice))) rfl (exf_licenses) <|
    exclF_plain (some .str) rfl (exf_plain rfl) <|
    exclF_plain (some .str) rfl (exf_plain rfl) <|
    exclF_plain (some .str) rfl (exf_plain rfl) <|
    exclF_plain (some (.since SpecVersion1_6 (.list .str))) rfl (exf_plain rfl) <|
    exclF_plain (some (.since SpecVersion1_6 (.list .str))) rfl (exf_plain rfl) <|
    exclF_plain (some (.place .swid)) rfl (exf_opt_true (fun a _ => excl_swid v a)) <|
    exclF_plain (some .bool) rfl (exf_plain rfl) <|
    exclF_field (some (.place .componentPedigree)) rfl (exf_opt h_pedigree) <|
    exclF_plain (some (.list (.place .externalReference))) rfl (exf_list_true (fun _ => trivial) (fun a _ => excl_externalReference v a)) <|
    exclF_plain (some (.since SpecVersion1_3 (.list (.place .property)))) rfl (exf_since (exf_list_true (fun _ => trivial) (fun a _ => excl_property v a))) <|
    exclF_field (some (.list (.place .component))) rfl (exf_list (fun _ => trivial) h_components) <|
    exclF_field (some (.since SpecVersion1_3 (.place .componentEvidence))) rfl (exf_since (exf_opt (fun a _ => excl_evidence v a))) <|
    exclF_plain (some (.since SpecVersion1_4 (.place .releaseNotes))) rfl (exf_since (exf_opt_true (fun a _ => excl_releaseNotes v a))) <|
    exclF_field (some (.since SpecVersion1_5 (.place .modelCard))) rfl (exf_since (exf_opt (fun a _ => excl_mlModelCard v a))) <|
    exclF_field (some (.since SpecVersion1_5 (.list (.place .componentData)))) rfl (exf_since (exf_list (fun _ => trivial) (fun a _ => excl_componentData v a))) <|
    exclF_plain (some (.since SpecVersion1_6 (.place .cryptoProperties))) rfl (exf_since (exf_opt_true (fun a _ => excl_cryptoProperties v a))) <|
    exclF_plain (some (.since SpecVersion1_6 (.list .str))) rfl (exf_plain rfl) <|
    exclF_plain (some (.since SpecVersion1_7 .bool)) rfl (exf_plain rfl) <|
    exclF_plain (some (.since SpecVersion1_7 (.list (.place .patentAssertion)))) rfl (exf_since (exf_list_true (fun _ => trivial) (fun a _ => excl_patentAssertion v a))) <|
    exclF_plain (some (.since SpecVersion1_7 .str)) rfl (exf_plain rfl) <|
    exclF_field (some (.since SpecVersion1_4 (.place .signature))) rfl (exf_since (exf_opt (fun a _ => excl_jsfSignature v a))) <|
    exclF_nil)) ?_
  cases x
  simp [Place.Permits, J.componentFields, JFields.Writes, Component.Exclusive, Component.toP, exclusiveComponents_iff,
    exclusivePedigreeOpt_iff, nem_string]

theorem excl_component (v : Int) (x : Component) : ExclC v (.place .component) J.component x (x.Exclusive v) := by
  suffices H : ∀ n (x : Component), x.height ≤ n → ExclC v (.place .component) J.component x (x.Exclusive v) from
    H x.height x (Nat.le_refl _)
  intro n
  induction n with
  | zero => intro x h; rw [Component.height_eq] at h; omega
  | succ n ih =>
    intro x h
    refine (component_sameAt_self x).exclC ?_
    rw [Component.height_eq] at h
    have hm : max (heightComponents x.components) (heightPedigreeOpt x.pedigree) ≤ n := by omega
    rw [Nat.max_le] at hm
    have hl : ∀ p : PSlice Component, heightComponents p ≤ n →
        ∀ c ∈ p.elems, ExclC v (.place .component) J.component c (c.Exclusive v) := by
      intro p hp
      rw [heightComponents_le] at hp
      exact fun c hc => ih c (hp c hc)
    refine excl_componentWith _ v x (hl _ hm.1) ?_
    intro p hp
    have hp : x.pedigree = some p := hp
    have hm := hm.2
    simp only [hp, heightPedigreeOpt, heightPedigree_eq, Nat.max_le] at hm
    exact excl_pedigreeWith _ v p (hl _ hm.1) (hl _ hm.2.1) (hl _ hm.2.2)


theorem excl_dataClassification (v : Int) (x : DataClassification) : ExclC v (.place .serviceData) J.dataClassification x (DataClassification.Exclusive v x) := by
  refine ExclC.congr (excl_struct (
    exclF_plain (some .str) rfl (exf_plain rfl) <|
    exclF_plain (some .str) rfl (exf_plain rfl) <|
    exclF_plain (some (.since SpecVersion1_5 .str)) rfl (exf_plain rfl) <|
    exclF_plain (some (.since SpecVersion1_5 .str)) rfl (exf_plain rfl) <|
    exclF_field (some (.since SpecVersion1_5 (.place .dataGovernance))) rfl (exf_since (exf_opt (fun a _ => excl_dataGovernance v a))) <|
    exclF_plain (some (.since SpecVersion1_5 (.list .str))) rfl (exf_plain rfl) <|
    exclF_plain (some (.since SpecVersion1_5 (.list .str))) rfl (exf_plain rfl) <|
    exclF_nil)) ?_
  simp [Place.Permits, DataClassification.Exclusive, DataClassification.toP]

theorem excl_serviceWith (C : JCodec Service) (v : Int) (x : Service)
    (h_services : ∀ c ∈ x.services.elems, ExclC v (.place .service) C c (c.Exclusive v)) :
    ExclC v (.place .service) (J.serviceWith C) x (x.Exclusive v) := by
  refine ExclC.congr (excl_struct (
    exclF_plain (some .str) rfl (exf_plain rfl) <|
    exclF_plain (some (.place .organizationalEntity)) rfl (exf_opt_true (fun a _ => excl_organizationalEntity v a)) <|
    exclF_plain (some .str) rfl (exf_plain rfl) <|
    exclF_plain (some .str) rfl (exf_plain rfl) <|
    exclF_plain (some .str) rfl (exf_plain rfl) <|
    exclF_plain (some .str) rfl (exf_plain rfl) <|
    exclF_plain (some (.list .str)) rfl (exf_plain rfl) <|
    exclF_plain (some .bool) rfl (exf_plain rfl) <|
    exclF_plain (some .bool) rfl (exf_plain rfl) <|
    exclF_field (some (.list (.place .serviceData))) rfl (exf_list (fun _ => trivial) (fun a _ => excl_dataClassification v a)) <|
    exclF_field (some (.list (.place .licenseChoice))) rfl (exf_licenses) <|
    exclF_plain (some (.list (.place .externalReference))) rfl (exf_list_true (fun _ => trivial) (fun a _ => excl_externalReference v a)) <|
    exclF_plain (some (.since SpecVersion1_3 (.list (.place .property)))) rfl (exf_since (exf_list_true (fun _ => trivial) (fun a _ => excl_property v a))) <|
    exclF_field (some (.list (.place .service))) rfl (exf_list (fun _ => trivial) h_services) <|
    exclF_plain (some (.since SpecVersion1_4 (.place .releaseNotes))) rfl (exf_since (exf_opt_true (fun a _ => excl_releaseNotes v a))) <|
    exclF_plain (some (.since SpecVersion1_6 (.list .str))) rfl (exf_plain rfl) <|
    exclF_plain (some (.since SpecVersion1_5 .str)) rfl (exf_plain rfl) <|
    exclF_plain (some (.since SpecVersion1_7 (.list (.place .patentAssertion)))) rfl (exf_since (exf_list_true (fun _ => trivial) (fun a _ => excl_patentAssertion v a))) <|
    exclF_field (some (.since SpecVersion1_4 (.place .signature))) rfl (exf_since (exf_opt (fun a _ => excl_jsfSignature v a))) <|
    exclF_nil)) ?_
  cases x
  simp [Place.Permits, J.serviceFields, JFields.Writes, Service.Exclusive, Service.toP, exclusiveServices_iff]

theorem excl_service (v : Int) (x : Service) : ExclC v (.place .service) J.service x (x.Exclusive v) := by
  suffices H : ∀ n (x : Service), x.height ≤ n → ExclC v (.place .service) J.service x (x.Exclusive v) from
    H x.height x (Nat.le_refl _)
  intro n
  induction n with
  | zero => intro x h; rw [Service.height_eq] at h; omega
  | succ n ih =>
    intro x h
    refine (service_sameAt_self x).exclC ?_
    rw [Service.height_eq] at h
    have hm : heightServices x.services ≤ n := by omega
    rw [heightServices_le] at hm
    exact excl_serviceWith _ v x fun c hc => ih c (hm c hc)


theorem excl_annotator (v : Int) (x : Annotator) : ExclC v (.place .annotationsAnnotator) J.annotator x (Annotator.Exclusive v x) := by
  refine ExclC.congr (excl_struct (
    exclF_plain (some (.place .organizationalEntity)) rfl (exf_opt_true (fun a _ => excl_organizationalEntity v a)) <|
    exclF_plain (some (.place .organizationalContact)) rfl (exf_opt_true (fun a _ => excl_organizationalContact v a)) <|
    exclF_field (some (.place .component)) rfl (exf_opt (fun a _ => excl_component v a)) <|
    exclF_field (some (.place .service)) rfl (exf_opt (fun a _ => excl_service v a)) <|
    exclF_nil)) ?_
  simp [Place.Permits, Annotator.Exclusive, J.annotatorFields, JFields.Writes, Annotator.toP, nem_string, nem_bomReference, nem_option, nem_pslice, and_assoc]

theorem excl_annotation (v : Int) (x : Annotation) : ExclC v (.place .annotations) J.annotation x (Annotation.Exclusive v x) := by
  refine ExclC.congr (excl_struct (
    exclF_plain (some .str) rfl (exf_plain rfl) <|
    exclF_plain (some (.list .str)) rfl (exf_plain rfl) <|
    exclF_field (some (.place .annotationsAnnotator)) rfl (exf_opt (fun a _ => excl_annotator v a)) <|
    exclF_plain (some .str) rfl (exf_plain rfl) <|
    exclF_plain (some .str) rfl (exf_plain rfl) <|
    exclF_field (some (.place .signature)) rfl (exf_opt (fun a _ => excl_jsfSignature v a)) <|
    exclF_nil)) ?_
  simp [Place.Permits, Annotation.Exclusive, Annotation.toP]

theorem excl_assessor (v : Int) (x : Assessor) : ExclC v (.place .assessors) J.assessor x True := by
  refine ExclC.congr (excl_struct (
    exclF_plain (some .str) rfl (exf_plain rfl) <|
    exclF_plain (some .bool) rfl (exf_plain rfl) <|
    exclF_plain (some (.place .organizationalEntity)) rfl (exf_opt_true (fun a _ => excl_organizationalEntity v a)) <|
    exclF_nil)) ?_
  simp [Place.Permits, ]

theorem excl_attestationConformance (v : Int) (x : AttestationConformance) : ExclC v (.place .conformance) J.attestationConformance x True := by
  refine ExclC.congr (excl_struct (
    exclF_plain (some .num) rfl (exf_plain rfl) <|
    exclF_plain (some .str) rfl (exf_plain rfl) <|
    exclF_plain (some (.list .str)) rfl (exf_plain rfl) <|
    exclF_nil)) ?_
  simp [Place.Permits, ]

theorem excl_attestationConfidence (v : Int) (x : AttestationConfidence) : ExclC v (.place .confidence) J.attestationConfidence x True := by
  refine ExclC.congr (excl_struct (
    exclF_plain (some .num) rfl (exf_plain rfl) <|
    exclF_plain (some .str) rfl (exf_plain rfl) <|
    exclF_nil)) ?_
  simp [Place.Permits, ]

theorem excl_attestationMap (v : Int) (x : AttestationMap) : ExclC v (.place .attestationMap) J.attestationMap x True := by
  refine ExclC.congr (excl_struct (
    exclF_plain (some .str) rfl (exf_plain rfl) <|
    exclF_plain (some (.list .str)) rfl (exf_plain rfl) <|
    exclF_plain (some (.list .str)) rfl (exf_plain rfl) <|
    exclF_plain (some (.place .conformance)) rfl (exf_opt_true (fun a _ => excl_attestationConformance v a)) <|
    exclF_plain (some (.place .confidence)) rfl (exf_opt_true (fun a _ => excl_attestationConfidence v a)) <|
    exclF_nil)) ?_
  simp [Place.Permits, ]

theorem excl_attestation (v : Int) (x : Attestation) : ExclC v (.place .attestations) J.attestation x (Attestation.Exclusive v x) := by
  refine ExclC.congr (excl_struct (
    exclF_plain (some .str) rfl (exf_plain rfl) <|
    exclF_plain (some .str) rfl (exf_plain rfl) <|
    exclF_plain (some (.list (.place .attestationMap))) rfl (exf_list_true (fun _ => trivial) (fun a _ => excl_attestationMap v a)) <|
    exclF_field (some (.place .signature)) rfl (exf_opt (fun a _ => excl_jsfSignature v a)) <|
    exclF_nil)) ?_
  simp [Place.Permits, Attestation.Exclusive, Attestation.toP]

theorem excl_composition (v : Int) (x : Composition) : ExclC v (.place .compositions) J.composition x (Composition.Exclusive v x) := by
  refine ExclC.congr (excl_struct (
    exclF_plain (some (.since SpecVersion1_5 .str)) rfl (exf_plain rfl) <|
    exclF_plain (some .str) rfl (exf_plain rfl) <|
    exclF_plain (some (.list .str)) rfl (exf_plain rfl) <|
    exclF_plain (some (.list .str)) rfl (exf_plain rfl) <|
    exclF_plain (some (.since SpecVersion1_5 (.list .str))) rfl (exf_plain rfl) <|
    exclF_field (some (.since SpecVersion1_4 (.place .signature))) rfl (exf_since (exf_opt (fun a _ => excl_jsfSignature v a))) <|
    exclF_nil)) ?_
  simp [Place.Permits, Composition.Exclusive, Composition.toP]

theorem excl_claim (v : Int) (x : Claim) : ExclC v (.place .claims) J.claim x (Claim.Exclusive v x) := by
  refine ExclC.congr (excl_struct (
    exclF_plain (some .str) rfl (exf_plain rfl) <|
    exclF_plain (some .str) rfl (exf_plain rfl) <|
    exclF_plain (some .str) rfl (exf_plain rfl) <|
    exclF_plain (some (.list .str)) rfl (exf_plain rfl) <|
    exclF_plain (some .str) rfl (exf_plain rfl) <|
    exclF_plain (some (.list .str)) rfl (exf_plain rfl) <|
    exclF_plain (some (.list .str)) rfl (exf_plain rfl) <|
    exclF_plain (some (.list (.place .externalReference))) rfl (exf_list_true (fun _ => trivial) (fun a _ => excl_externalReference v a)) <|
    exclF_field (some (.place .signature)) rfl (exf_opt (fun a _ => excl_jsfSignature v a)) <|
    exclF_nil)) ?_
  simp [Place.Permits, Claim.Exclusive, Claim.toP]

theorem excl_evidenceDataContents (v : Int) (x : EvidenceDataContents) : ExclC v (.place .evidenceDataContents) J.evidenceDataContents x True := by
  refine ExclC.congr (excl_struct (
    exclF_plain (some (.place .attachment)) rfl (exf_opt_true (fun a _ => excl_attachedText v a)) <|
    exclF_plain (some .str) rfl (exf_plain rfl) <|
    exclF_nil)) ?_
  simp [Place.Permits, ]

theorem excl_evidenceData (v : Int) (x : EvidenceData) : ExclC v (.place .evidenceData) J.evidenceData x (EvidenceData.Exclusive v x) := by
  refine ExclC.congr (excl_struct (
    exclF_plain (some .str) rfl (exf_plain rfl) <|
    exclF_plain (some (.place .evidenceDataContents)) rfl (exf_opt_true (fun a _ => excl_evidenceDataContents v a)) <|
    exclF_plain (some .str) rfl (exf_plain rfl) <|
    exclF_plain (some (.list .str)) rfl (exf_plain rfl) <|
    exclF_field (some (.place .dataGovernance)) rfl (exf_opt (fun a _ => excl_dataGovernance v a)) <|
    exclF_nil)) ?_
  simp [Place.Permits, EvidenceData.Exclusive, EvidenceData.toP]

theorem excl_declarationEvidence (v : Int) (x : DeclarationEvidence) : ExclC v (.place .evidence) J.declarationEvidence x (DeclarationEvidence.Exclusive v x) := by
  refine ExclC.congr (excl_struct (
    exclF_plain (some .str) rfl (exf_plain rfl) <|
    exclF_plain (some .str) rfl (exf_plain rfl) <|
    exclF_plain (some .str) rfl (exf_plain rfl) <|
    exclF_field (some (.list (.place .evidenceData))) rfl (exf_list (fun _ => trivial) (fun a _ => excl_evidenceData v a)) <|
    exclF_plain (some .str) rfl (exf_plain rfl) <|
    exclF_plain (some .str) rfl (exf_plain rfl) <|
    exclF_plain (some (.place .organizationalContact)) rfl (exf_opt_true (fun a _ => excl_organizationalContact v a)) <|
    exclF_plain (some (.place .organizationalContact)) rfl (exf_opt_true (fun a _ => excl_organizationalContact v a)) <|
    exclF_field (some (.place .signature)) rfl (exf_opt (fun a _ => excl_jsfSignature v a)) <|
    exclF_nil)) ?_
  simp [Place.Permits, DeclarationEvidence.Exclusive, DeclarationEvidence.toP]

theorem excl_targets (v : Int) (x : Targets) : ExclC v (.place .targets) J.targets x (Targets.Exclusive v x) := by
  refine ExclC.congr (excl_struct (
    exclF_plain (some (.list (.place .organizationalEntity))) rfl (exf_list_true (fun _ => trivial) (fun a _ => excl_organizationalEntity v a)) <|
    exclF_field (some (.list (.place .component))) rfl (exf_list (fun _ => trivial) (fun a _ => excl_component v a)) <|
    exclF_field (some (.list (.place .service))) rfl (exf_list (fun _ => trivial) (fun a _ => excl_service v a)) <|
    exclF_nil)) ?_
  simp [Place.Permits, Targets.Exclusive, Targets.toP]

theorem excl_signatory (v : Int) (x : Signatory) : ExclC v (.place .affirmationSignatories) J.signatory x (Signatory.Exclusive v x) := by
  refine ExclC.congr (excl_struct (
    exclF_plain (some .str) rfl (exf_plain rfl) <|
    exclF_plain (some .str) rfl (exf_plain rfl) <|
    exclF_field (some (.place .signature)) rfl (exf_opt (fun a _ => excl_jsfSignature v a)) <|
    exclF_plain (some (.place .organizationalEntity)) rfl (exf_opt_true (fun a _ => excl_organizationalEntity v a)) <|
    exclF_plain (some (.place .externalReference)) rfl (exf_opt_true (fun a _ => excl_externalReference v a)) <|
    exclF_nil)) ?_
  simp [Place.Permits, Signatory.Exclusive, J.signatoryFields, JFields.Writes, Signatory.toP, nem_string, nem_bomReference, nem_option, nem_pslice, and_assoc]

theorem excl_affirmation (v : Int) (x : Affirmation) : ExclC v (.place .affirmation) J.affirmation x (Affirmation.Exclusive v x) := by
  refine ExclC.congr (excl_struct (
    exclF_plain (some .str) rfl (exf_plain rfl) <|
    exclF_field (some (.list (.place .affirmationSignatories))) rfl (exf_list (fun _ => trivial) (fun a _ => excl_signatory v a)) <|
    exclF_field (some (.place .signature)) rfl (exf_opt (fun a _ => excl_jsfSignature v a)) <|
    exclF_nil)) ?_
  simp [Place.Permits, Affirmation.Exclusive, Affirmation.toP]

theorem excl_declarations (v : Int) (x : Declarations) : ExclC v (.place .bomDeclarations) J.declarations x (Declarations.Exclusive v x) := by
  refine ExclC.congr (excl_struct (
    exclF_plain (some (.list (.place .assessors))) rfl (exf_list_true (fun _ => trivial) (fun a _ => excl_assessor v a)) <|
    exclF_field (some (.list (.place .attestations))) rfl (exf_list (fun _ => trivial) (fun a _ => excl_attestation v a)) <|
    exclF_field (some (.list (.place .claims))) rfl (exf_list (fun _ => trivial) (fun a _ => excl_claim v a)) <|
    exclF_field (some (.list (.place .evidence))) rfl (exf_list (fun _ => trivial) (fun a _ => excl_declarationEvidence v a)) <|
    exclF_field (some (.place .targets)) rfl (exf_opt (fun a _ => excl_targets v a)) <|
    exclF_field (some (.place .affirmation)) rfl (exf_opt (fun a _ => excl_affirmation v a)) <|
    exclF_field (some (.place .signature)) rfl (exf_opt (fun a _ => excl_jsfSignature v a)) <|
    exclF_nil)) ?_
  simp [Place.Permits, Declarations.Exclusive, Declarations.toP]

theorem excl_priorityApplication (v : Int) (x : PriorityApplication) : ExclC v (.place .priorityApplication) J.priorityApplication x True := by
  refine ExclC.congr (excl_struct (
    exclF_plain (some .str) rfl (exf_plain rfl) <|
    exclF_plain (some .str) rfl (exf_plain rfl) <|
    exclF_plain (some .str) rfl (exf_plain rfl) <|
    exclF_nil)) ?_
  simp [Place.Permits, ]

theorem excl_patent (v : Int) (x : Patent) : ExclC v (.place .patentOrFamily) J.patent x True := by
  refine ExclC.congr (excl_struct (
    exclF_plain (some .str) rfl (exf_plain rfl) <|
    exclF_plain (some .str) rfl (exf_plain rfl) <|
    exclF_plain (some .str) rfl (exf_plain rfl) <|
    exclF_plain (some .str) rfl (exf_plain rfl) <|
    exclF_plain (some (.place .priorityApplication)) rfl (exf_opt_true (fun a _ => excl_priorityApplication v a)) <|
    exclF_plain (some .str) rfl (exf_plain rfl) <|
    exclF_plain (some .str) rfl (exf_plain rfl) <|
    exclF_plain (some .str) rfl (exf_plain rfl) <|
    exclF_plain (some .str) rfl (exf_plain rfl) <|
    exclF_plain (some .str) rfl (exf_plain rfl) <|
    exclF_plain (some .str) rfl (exf_plain rfl) <|
    exclF_plain (some .str) rfl (exf_plain rfl) <|
    exclF_plain (some (.list (.place .patentAssignee))) rfl (exf_list_true (fun _ => trivial) (fun a _ => excl_organizationalEntityOrContact_patentAssignee v a)) <|
    exclF_plain (some (.list (.place .externalReference))) rfl (exf_list_true (fun _ => trivial) (fun a _ => excl_externalReference v a)) <|
    exclF_nil)) ?_
  simp [Place.Permits, ]

theorem excl_patentFamily (v : Int) (x : PatentFamily) : ExclC v (.place .patentOrFamily) J.patentFamily x True := by
  refine ExclC.congr (excl_struct (
    exclF_plain (some .str) rfl (exf_plain rfl) <|
    exclF_plain (some .str) rfl (exf_plain rfl) <|
    exclF_plain (some (.place .priorityApplication)) rfl (exf_opt_true (fun a _ => excl_priorityApplication v a)) <|
    exclF_plain (some (.list .str)) rfl (exf_plain rfl) <|
    exclF_plain (some (.list (.place .externalReference))) rfl (exf_list_true (fun _ => trivial) (fun a _ => excl_externalReference v a)) <|
    exclF_nil)) ?_
  simp [Place.Permits, ]

theorem excl_patentChoice (v : Int) (x : PatentChoice) :
    ExclC v (.place .patentOrFamily) J.patentChoice x True := by
  intro j hj
  obtain ⟨a, b⟩ := x
  cases a <;> cases b <;> simp only [J.patentChoice] at hj
  · simp only [Option.some.injEq] at hj; subst hj; simp [exclusive_place, Place.Permits]
  · exact excl_patentFamily v _ j hj
  · exact excl_patent v _ j hj
  · exact excl_patent v _ j hj


theorem excl_standardRequirement (v : Int) (x : StandardRequirement) : ExclC v (.place .standardRequirements) J.standardRequirement x True := by
  refine ExclC.congr (excl_struct (
    exclF_plain (some .str) rfl (exf_plain rfl) <|
    exclF_plain (some .str) rfl (exf_plain rfl) <|
    exclF_plain (some .str) rfl (exf_plain rfl) <|
    exclF_plain (some .str) rfl (exf_plain rfl) <|
    exclF_plain (some (.list .str)) rfl (exf_plain rfl) <|
    exclF_plain (some (.list .str)) rfl (exf_plain rfl) <|
    exclF_plain (some .str) rfl (exf_plain rfl) <|
    exclF_plain (some (.list (.place .property))) rfl (exf_list_true (fun _ => trivial) (fun a _ => excl_property v a)) <|
    exclF_plain (some (.list (.place .externalReference))) rfl (exf_list_true (fun _ => trivial) (fun a _ => excl_externalReference v a)) <|
    exclF_nil)) ?_
  simp [Place.Permits, ]

theorem excl_standardLevel (v : Int) (x : StandardLevel) : ExclC v (.place .standardLevels) J.standardLevel x True := by
  refine ExclC.congr (excl_struct (
    exclF_plain (some .str) rfl (exf_plain rfl) <|
    exclF_plain (some .str) rfl (exf_plain rfl) <|
    exclF_plain (some .str) rfl (exf_plain rfl) <|
    exclF_plain (some .str) rfl (exf_plain rfl) <|
    exclF_plain (some (.list .str)) rfl (exf_plain rfl) <|
    exclF_nil)) ?_
  simp [Place.Permits, ]

theorem excl_standardDefinition (v : Int) (x : StandardDefinition) : ExclC v (.place .standard) J.standardDefinition x (StandardDefinition.Exclusive v x) := by
  refine ExclC.congr (excl_struct (
    exclF_plain (some .str) rfl (exf_plain rfl) <|
    exclF_plain (some .str) rfl (exf_plain rfl) <|
    exclF_plain (some .str) rfl (exf_plain rfl) <|
    exclF_plain (some .str) rfl (exf_plain rfl) <|
    exclF_plain (some .str) rfl (exf_plain rfl) <|
    exclF_plain (some (.list (.place .standardRequirements))) rfl (exf_list_true (fun _ => trivial) (fun a _ => excl_standardRequirement v a)) <|
    exclF_plain (some (.list (.place .standardLevels))) rfl (exf_list_true (fun _ => trivial) (fun a _ => excl_standardLevel v a)) <|
    exclF_plain (some (.list (.place .externalReference))) rfl (exf_list_true (fun _ => trivial) (fun a _ => excl_externalReference v a)) <|
    exclF_field (some (.place .signature)) rfl (exf_opt (fun a _ => excl_jsfSignature v a)) <|
    exclF_nil)) ?_
  simp [Place.Permits, StandardDefinition.Exclusive, StandardDefinition.toP]

theorem excl_definitions (v : Int) (x : Definitions) : ExclC v (.place .bomDefinitions) J.definitions x (Definitions.Exclusive v x) := by
  refine ExclC.congr (excl_struct (
    exclF_field (some (.list (.place .standard))) rfl (exf_list (fun _ => trivial) (fun a _ => excl_standardDefinition v a)) <|
    exclF_plain (some (.since SpecVersion1_7 (.list (.place .patentOrFamily)))) rfl (exf_since (exf_list_true (fun _ => trivial) (fun a _ => excl_patentChoice v a))) <|
    exclF_nil)) ?_
  simp [Place.Permits, Definitions.Exclusive, Definitions.toP]

theorem excl_dependency (v : Int) (x : Dependency) : ExclC v (.place .dependency) J.dependency x True := by
  refine ExclC.congr (excl_struct (
    exclF_plain (some .str) rfl (exf_plain rfl) <|
    exclF_plain (some (.list .str)) rfl (exf_plain rfl) <|
    exclF_plain (some (.since SpecVersion1_6 (.list .str))) rfl (exf_plain rfl) <|
    exclF_nil)) ?_
  simp [Place.Permits, ]

theorem excl_resourceReferenceChoice (v : Int) (x : ResourceReferenceChoice) : ExclC v (.place .resourceReferenceChoice) J.resourceReferenceChoice x (ResourceReferenceChoice.Exclusive v x) := by
  refine ExclC.congr (excl_struct (
    exclF_plain (some .str) rfl (exf_plain rfl) <|
    exclF_plain (some (.place .externalReference)) rfl (exf_opt_true (fun a _ => excl_externalReference v a)) <|
    exclF_nil)) ?_
  simp [Place.Permits, ResourceReferenceChoice.Exclusive, J.resourceReferenceChoiceFields, JFields.Writes, ResourceReferenceChoice.toP, nem_string, nem_bomReference, nem_option, nem_pslice, and_assoc]

theorem excl_environmentVariableChoice (v : Int) (x : EnvironmentVariableChoice) :
    ExclC v (.alt .str (.place .property)) J.environmentVariableChoice x True := by
  intro j hj
  have hs : ∀ j, (if x.value ≠ "" then some (Json.str x.value) else some (.obj [])) = some j →
      HasExclusive v (.alt .str (.place .property)) j := by
    intro j hj
    split at hj <;> simp only [Option.some.injEq] at hj <;> subst hj <;> rw [exclusive_alt]
    · exact ⟨.str _, exclusive_place_str⟩
    · simp [exclusive_place, Place.Permits, HasExclusive.str]
  simp only [J.environmentVariableChoice] at hj
  refine iff_true_intro ?_
  split at hj
  · split at hj
    · exact exclusive_alt.2 ⟨.str _, (excl_property v _ j hj).2 trivial⟩
    · exact hs j hj
  · exact hs j hj


theorem excl_parameter (v : Int) (x : Parameter) : ExclC v (.place .parameter) J.parameter x True := by
  refine ExclC.congr (excl_struct (
    exclF_plain (some .str) rfl (exf_plain rfl) <|
    exclF_plain (some .str) rfl (exf_plain rfl) <|
    exclF_plain (some .str) rfl (exf_plain rfl) <|
    exclF_nil)) ?_
  simp [Place.Permits, ]

theorem excl_taskInput (v : Int) (x : TaskInput) : ExclC v (.place .inputType) J.taskInput x (TaskInput.Exclusive v x) := by
  refine ExclC.congr (excl_struct (
    exclF_field (some (.place .resourceReferenceChoice)) rfl (exf_opt (fun a _ => excl_resourceReferenceChoice v a)) <|
    exclF_plain (some (.list (.place .parameter))) rfl (exf_list_true (fun _ => trivial) (fun a _ => excl_parameter v a)) <|
    exclF_plain (some (.list (.alt .str (.place .property)))) rfl (exf_list_true (fun _ => trivial) (fun a _ => excl_environmentVariableChoice v a)) <|
    exclF_plain (some (.place .attachment)) rfl (exf_opt_true (fun a _ => excl_attachedText v a)) <|
    exclF_field (some (.place .resourceReferenceChoice)) rfl (exf_opt (fun a _ => excl_resourceReferenceChoice v a)) <|
    exclF_field (some (.place .resourceReferenceChoice)) rfl (exf_opt (fun a _ => excl_resourceReferenceChoice v a)) <|
    exclF_plain (some (.list (.place .property))) rfl (exf_list_true (fun _ => trivial) (fun a _ => excl_property v a)) <|
    exclF_nil)) ?_
  simp [Place.Permits, TaskInput.Exclusive, J.taskInputFields, JFields.Writes, TaskInput.toP, nem_string, nem_bomReference, nem_option, nem_pslice, and_assoc]

theorem excl_taskOutput (v : Int) (x : TaskOutput) : ExclC v (.place .outputType) J.taskOutput x (TaskOutput.Exclusive v x) := by
  refine ExclC.congr (excl_struct (
    exclF_field (some (.place .resourceReferenceChoice)) rfl (exf_opt (fun a _ => excl_resourceReferenceChoice v a)) <|
    exclF_plain none rfl (exf_none) <|
    exclF_plain (some (.list (.alt .str (.place .property)))) rfl (exf_list_true (fun _ => trivial) (fun a _ => excl_environmentVariableChoice v a)) <|
    exclF_plain (some (.place .attachment)) rfl (exf_opt_true (fun a _ => excl_attachedText v a)) <|
    exclF_plain (some .str) rfl (exf_plain rfl) <|
    exclF_field (some (.place .resourceReferenceChoice)) rfl (exf_opt (fun a _ => excl_resourceReferenceChoice v a)) <|
    exclF_field (some (.place .resourceReferenceChoice)) rfl (exf_opt (fun a _ => excl_resourceReferenceChoice v a)) <|
    exclF_plain (some (.list (.place .property))) rfl (exf_list_true (fun _ => trivial) (fun a _ => excl_property v a)) <|
    exclF_nil)) ?_
  simp [Place.Permits, TaskOutput.Exclusive, J.taskOutputFields, JFields.Writes, TaskOutput.toP, nem_string, nem_bomReference, nem_option, nem_pslice, and_assoc]

theorem excl_taskCommand (v : Int) (x : TaskCommand) : ExclC v (.place .command) J.taskCommand x True := by
  refine ExclC.congr (excl_struct (
    exclF_plain (some .str) rfl (exf_plain rfl) <|
    exclF_plain (some (.list (.place .property))) rfl (exf_list_true (fun _ => trivial) (fun a _ => excl_property v a)) <|
    exclF_nil)) ?_
  simp [Place.Permits, ]

theorem excl_taskStep (v : Int) (x : TaskStep) : ExclC v (.place .step) J.taskStep x True := by
  refine ExclC.congr (excl_struct (
    exclF_plain (some .str) rfl (exf_plain rfl) <|
    exclF_plain (some .str) rfl (exf_plain rfl) <|
    exclF_plain (some (.list (.place .command))) rfl (exf_list_true (fun _ => trivial) (fun a _ => excl_taskCommand v a)) <|
    exclF_plain (some (.list (.place .property))) rfl (exf_list_true (fun _ => trivial) (fun a _ => excl_property v a)) <|
    exclF_nil)) ?_
  simp [Place.Permits, ]

theorem excl_event (v : Int) (x : Event) : ExclC v (.place .event) J.event x (Event.Exclusive v x) := by
  refine ExclC.congr (excl_struct (
    exclF_plain (some .str) rfl (exf_plain rfl) <|
    exclF_plain (some .str) rfl (exf_plain rfl) <|
    exclF_plain (some .str) rfl (exf_plain rfl) <|
    exclF_plain (some (.place .attachment)) rfl (exf_opt_true (fun a _ => excl_attachedText v a)) <|
    exclF_field (some (.place .resourceReferenceChoice)) rfl (exf_opt (fun a _ => excl_resourceReferenceChoice v a)) <|
    exclF_field (some (.place .resourceReferenceChoice)) rfl (exf_opt (fun a _ => excl_resourceReferenceChoice v a)) <|
    exclF_plain (some (.list (.place .property))) rfl (exf_list_true (fun _ => trivial) (fun a _ => excl_property v a)) <|
    exclF_nil)) ?_
  simp [Place.Permits, Event.Exclusive, Event.toP]

theorem excl_taskTriggerCondition (v : Int) (x : TaskTriggerCondition) : ExclC v (.place .condition) J.taskTriggerCondition x True := by
  refine ExclC.congr (excl_struct (
    exclF_plain (some .str) rfl (exf_plain rfl) <|
    exclF_plain (some .str) rfl (exf_plain rfl) <|
    exclF_plain (some (.list (.place .property))) rfl (exf_list_true (fun _ => trivial) (fun a _ => excl_property v a)) <|
    exclF_nil)) ?_
  simp [Place.Permits, ]

theorem excl_taskTrigger (v : Int) (x : TaskTrigger) : ExclC v (.place .trigger) J.taskTrigger x (TaskTrigger.Exclusive v x) := by
  refine ExclC.congr (excl_struct (
    exclF_plain (some .str) rfl (exf_plain rfl) <|
    exclF_plain (some .str) rfl (exf_plain rfl) <|
    exclF_plain (some .str) rfl (exf_plain rfl) <|
    exclF_plain (some .str) rfl (exf_plain rfl) <|
    exclF_field (some (.list (.place .resourceReferenceChoice))) rfl (exf_list (fun _ => trivial) (fun a _ => excl_resourceReferenceChoice v a)) <|
    exclF_plain (some .str) rfl (exf_plain rfl) <|
    exclF_field (some (.place .event)) rfl (exf_opt (fun a _ => excl_event v a)) <|
    exclF_plain (some (.list (.place .condition))) rfl (exf_list_true (fun _ => trivial) (fun a _ => excl_taskTriggerCondition v a)) <|
    exclF_plain (some .str) rfl (exf_plain rfl) <|
    exclF_field (some (.list (.place .inputType))) rfl (exf_list (fun _ => trivial) (fun a _ => excl_taskInput v a)) <|
    exclF_field (some (.list (.place .outputType))) rfl (exf_list (fun _ => trivial) (fun a _ => excl_taskOutput v a)) <|
    exclF_plain (some (.list (.place .property))) rfl (exf_list_true (fun _ => trivial) (fun a _ => excl_property v a)) <|
    exclF_nil)) ?_
  simp [Place.Permits, TaskTrigger.Exclusive, TaskTrigger.toP]

theorem excl_volume (v : Int) (x : Volume) : ExclC v (.place .volume) J.volume x True := by
  refine ExclC.congr (excl_struct (
    exclF_plain (some .str) rfl (exf_plain rfl) <|
    exclF_plain (some .str) rfl (exf_plain rfl) <|
    exclF_plain (some .str) rfl (exf_plain rfl) <|
    exclF_plain (some .str) rfl (exf_plain rfl) <|
    exclF_plain (some .str) rfl (exf_plain rfl) <|
    exclF_plain (some .bool) rfl (exf_plain rfl) <|
    exclF_plain (some .bool) rfl (exf_plain rfl) <|
    exclF_plain (some (.list (.place .property))) rfl (exf_list_true (fun _ => trivial) (fun a _ => excl_property v a)) <|
    exclF_nil)) ?_
  simp [Place.Permits, ]

theorem excl_taskWorkspace (v : Int) (x : TaskWorkspace) : ExclC v (.place .workspace) J.taskWorkspace x (TaskWorkspace.Exclusive v x) := by
  refine ExclC.congr (excl_struct (
    exclF_plain (some .str) rfl (exf_plain rfl) <|
    exclF_plain (some .str) rfl (exf_plain rfl) <|
    exclF_plain (some .str) rfl (exf_plain rfl) <|
    exclF_plain (some (.list .str)) rfl (exf_plain rfl) <|
    exclF_plain (some .str) rfl (exf_plain rfl) <|
    exclF_field (some (.list (.place .resourceReferenceChoice))) rfl (exf_list (fun _ => trivial) (fun a _ => excl_resourceReferenceChoice v a)) <|
    exclF_plain (some .str) rfl (exf_plain rfl) <|
    exclF_plain (some .str) rfl (exf_plain rfl) <|
    exclF_plain (some .str) rfl (exf_plain rfl) <|
    exclF_plain (some .str) rfl (exf_plain rfl) <|
    exclF_plain (some (.place .volume)) rfl (exf_opt_true (fun a _ => excl_volume v a)) <|
    exclF_plain (some (.list (.place .property))) rfl (exf_list_true (fun _ => trivial) (fun a _ => excl_property v a)) <|
    exclF_nil)) ?_
  simp [Place.Permits, TaskWorkspace.Exclusive, TaskWorkspace.toP]

theorem excl_task (v : Int) (x : Task) : ExclC v (.place .task) J.task x (Task.Exclusive v x) := by
  refine ExclC.congr (excl_struct (
    exclF_plain (some .str) rfl (exf_plain rfl) <|
    exclF_plain (some .str) rfl (exf_plain rfl) <|
    exclF_plain (some .str) rfl (exf_plain rfl) <|
    exclF_plain (some .str) rfl (exf_plain rfl) <|
    exclF_plain (some (.list (.place .property))) rfl (exf_list_true (fun _ => trivial) (fun a _ => excl_property v a)) <|
    exclF_field (some (.list (.place .resourceReferenceChoice))) rfl (exf_list (fun _ => trivial) (fun a _ => excl_resourceReferenceChoice v a)) <|
    exclF_plain (some (.list .str)) rfl (exf_plain rfl) <|
    exclF_field (some (.place .trigger)) rfl (exf_opt (fun a _ => excl_taskTrigger v a)) <|
    exclF_plain (some (.list (.place .step))) rfl (exf_list_true (fun _ => trivial) (fun a _ => excl_taskStep v a)) <|
    exclF_field (some (.list (.place .inputType))) rfl (exf_list (fun _ => trivial) (fun a _ => excl_taskInput v a)) <|
    exclF_field (some (.list (.place .outputType))) rfl (exf_list (fun _ => trivial) (fun a _ => excl_taskOutput v a)) <|
    exclF_plain (some .str) rfl (exf_plain rfl) <|
    exclF_plain (some .str) rfl (exf_plain rfl) <|
    exclF_field (some (.list (.place .workspace))) rfl (exf_list (fun _ => trivial) (fun a _ => excl_taskWorkspace v a)) <|
    exclF_plain (some (.list (.place .dependency))) rfl (exf_list_true (fun _ => trivial) (fun a _ => excl_dependency v a)) <|
    exclF_nil)) ?_
  simp [Place.Permits, Task.Exclusive, Task.toP]

theorem excl_workflow (v : Int) (x : Workflow) : ExclC v (.place .workflow) J.workflow x (Workflow.Exclusive v x) := by
  refine ExclC.congr (excl_struct (
    exclF_plain (some .str) rfl (exf_plain rfl) <|
    exclF_plain (some .str) rfl (exf_plain rfl) <|
    exclF_plain (some .str) rfl (exf_plain rfl) <|
    exclF_plain (some .str) rfl (exf_plain rfl) <|
    exclF_field (some (.list (.place .resourceReferenceChoice))) rfl (exf_list (fun _ => trivial) (fun a _ => excl_resourceReferenceChoice v a)) <|
    exclF_field (some (.list (.place .task))) rfl (exf_list (fun _ => trivial) (fun a _ => excl_task v a)) <|
    exclF_plain (some (.list (.place .dependency))) rfl (exf_list_true (fun _ => trivial) (fun a _ => excl_dependency v a)) <|
    exclF_plain (some (.list .str)) rfl (exf_plain rfl) <|
    exclF_field (some (.place .trigger)) rfl (exf_opt (fun a _ => excl_taskTrigger v a)) <|
    exclF_plain (some (.list (.place .step))) rfl (exf_list_true (fun _ => trivial) (fun a _ => excl_taskStep v a)) <|
    exclF_field (some (.list (.place .inputType))) rfl (exf_list (fun _ => trivial) (fun a _ => excl_taskInput v a)) <|
    exclF_field (some (.list (.place .outputType))) rfl (exf_list (fun _ => trivial) (fun a _ => excl_taskOutput v a)) <|
    exclF_plain (some .str) rfl (exf_plain rfl) <|
    exclF_plain (some .str) rfl (exf_plain rfl) <|
    exclF_field (some (.list (.place .workspace))) rfl (exf_list (fun _ => trivial) (fun a _ => excl_taskWorkspace v a)) <|
    exclF_plain (some (.list (.place .dependency))) rfl (exf_list_true (fun _ => trivial) (fun a _ => excl_dependency v a)) <|
    exclF_plain (some (.list (.place .property))) rfl (exf_list_true (fun _ => trivial) (fun a _ => excl_property v a)) <|
    exclF_nil)) ?_
  simp [Place.Permits, Workflow.Exclusive, Workflow.toP]

theorem excl_formula (v : Int) (x : Formula) : ExclC v (.place .formula) J.formula x (Formula.Exclusive v x) := by
  refine ExclC.congr (excl_struct (
    exclF_plain (some .str) rfl (exf_plain rfl) <|
    exclF_field (some (.list (.place .component))) rfl (exf_list (fun _ => trivial) (fun a _ => excl_component v a)) <|
    exclF_field (some (.list (.place .service))) rfl (exf_list (fun _ => trivial) (fun a _ => excl_service v a)) <|
    exclF_field (some (.list (.place .workflow))) rfl (exf_list (fun _ => trivial) (fun a _ => excl_workflow v a)) <|
    exclF_plain (some (.list (.place .property))) rfl (exf_list_true (fun _ => trivial) (fun a _ => excl_property v a)) <|
    exclF_nil)) ?_
  simp [Place.Permits, Formula.Exclusive, Formula.toP]

theorem excl_lifecycle (v : Int) (x : Lifecycle) : ExclC v (.place .metadataLifecycles) J.lifecycle x (Lifecycle.Exclusive v x) := by
  refine ExclC.congr (excl_struct (
    exclF_plain (some .str) rfl (exf_plain rfl) <|
    exclF_plain (some .str) rfl (exf_plain rfl) <|
    exclF_plain (some .str) rfl (exf_plain rfl) <|
    exclF_nil)) ?_
  simp [Place.Permits, Lifecycle.Exclusive, J.lifecycleFields, JFields.Writes, Lifecycle.toP, nem_string, nem_bomReference, nem_option, nem_pslice, and_assoc]

theorem excl_tool (v : Int) (x : Tool) : ExclC v (.place .tool) J.tool x True := by
  refine ExclC.congr (excl_struct (
    exclF_plain (some .str) rfl (exf_plain rfl) <|
    exclF_plain (some .str) rfl (exf_plain rfl) <|
    exclF_plain (some .str) rfl (exf_plain rfl) <|
    exclF_plain (some (.list (.place .hash))) rfl (exf_list_true (fun _ => trivial) (fun a _ => excl_hash v a)) <|
    exclF_plain (some (.since SpecVersion1_4 (.list (.place .externalReference)))) rfl (exf_since (exf_list_true (fun _ => trivial) (fun a _ => excl_externalReference v a))) <|
    exclF_nil)) ?_
  simp [Place.Permits, ]

theorem excl_toolsChoice (v : Int) (x : ToolsChoice) :
    ExclC v (.alt (.list (.place .tool)) (.since SpecVersion1_5 (.place .tools))) J.toolsChoice x (x.Exclusive v) := by
  intro j hj
  obtain ⟨t, c, s⟩ := x
  simp only [J.toolsChoice] at hj
  simp only [ToolsChoice.Exclusive]
  rw [exclusive_alt, exclusive_since]
  split at hj
  · cases hj
  · rename_i h1
    split at hj
    · rename_i ht
      have hcs : c = .nil ∧ s = .nil := by
        cases t <;> cases c <;> cases s <;> simp_all [PSlice.isNil]
      have h := excl_list (s := .place .tool) (fun _ => trivial) (fun a _ => excl_tool v a) j hj
      have hn : HasExclusive v (.place .tools) j := by
        cases t with
        | list xs =>
          simp only [JCodec.pslice, Option.map_eq_some_iff] at hj
          obtain ⟨js, _, rfl⟩ := hj; exact exclusive_place_arr
        | _ =>
          simp only [JCodec.pslice, Option.some.injEq] at hj
          subst hj; exact exclusive_null _
      rw [h]
      simp [hn, hcs.1, hcs.2, PSlice.elems]
    · split at hj
      · obtain ⟨ms, rfl⟩ := struct_is_obj hj
        have h : ExclC v (.place .tools) J.toolsChoiceJSON (c, s) (True ∧
            (∀ y ∈ c.elems, Component.Exclusive v y) ∧ (∀ y ∈ s.elems, Service.Exclusive v y) ∧ True) :=
          excl_struct (exclF_field (some (.list (.place .component))) rfl (exf_list (fun _ => trivial) (fun a _ => excl_component v a)) <|
            exclF_field (some (.list (.place .service))) rfl (exf_list (fun _ => trivial) (fun a _ => excl_service v a)) exclF_nil)
        rw [h _ hj]
        simp [exclusive_list_obj]
      · cases hj


theorem excl_distributionConstraints (v : Int) (x : DistributionConstraints) : ExclC v (.place .metadataDistributionConstraints) J.distributionConstraints x True := by
  refine ExclC.congr (excl_struct (
    exclF_plain (some .str) rfl (exf_plain rfl) <|
    exclF_nil)) ?_
  simp [Place.Permits, ]

theorem excl_metadata (v : Int) (x : Metadata) : ExclC v (.place .metadata) J.metadata x (Metadata.Exclusive v x) := by
  refine ExclC.congr (excl_struct (
    exclF_plain (some .str) rfl (exf_plain rfl) <|
    exclF_field (some (.since SpecVersion1_5 (.list (.place .metadataLifecycles)))) rfl (exf_since (exf_list (fun _ => trivial) (fun a _ => excl_lifecycle v a))) <|
    exclF_field (some (.alt (.list (.place .tool)) (.since SpecVersion1_5 (.place .tools)))) rfl (exf_opt (fun a _ => excl_toolsChoice v a)) <|
    exclF_plain (some (.list (.place .organizationalContact))) rfl (exf_list_true (fun _ => trivial) (fun a _ => excl_organizationalContact v a)) <|
    exclF_field (some (.place .component)) rfl (exf_opt (fun a _ => excl_component v a)) <|
    exclF_plain (some (.place .organizationalEntity)) rfl (exf_opt_true (fun a _ => excl_organizationalEntity v a)) <|
    exclF_plain (some (.since SpecVersion1_6 (.place .organizationalEntity))) rfl (exf_since (exf_opt_true (fun a _ => excl_organizationalEntity v a))) <|
    exclF_plain (some (.place .organizationalEntity)) rfl (exf_opt_true (fun a _ => excl_organizationalEntity v a)) <|
    exclF_field (some (.since SpecVersion1_3 (.list (.place .licenseChoice)))) rfl (exf_since (exf_licenses)) <|
    exclF_plain (some (.since SpecVersion1_3 (.list (.place .property)))) rfl (exf_since (exf_list_true (fun _ => trivial) (fun a _ => excl_property v a))) <|
    exclF_plain (some (.since SpecVersion1_7 (.place .metadataDistributionConstraints))) rfl (exf_since (exf_opt_true (fun a _ => excl_distributionConstraints v a))) <|
    exclF_nil)) ?_
  simp [Place.Permits, Metadata.Exclusive, Metadata.toP]

theorem excl_credits (v : Int) (x : Credits) : ExclC v (.place .vulnerabilityCredits) J.credits x True := by
  refine ExclC.congr (excl_struct (
    exclF_plain (some (.list (.place .organizationalEntity))) rfl (exf_list_true (fun _ => trivial) (fun a _ => excl_organizationalEntity v a)) <|
    exclF_plain (some (.list (.place .organizationalContact))) rfl (exf_list_true (fun _ => trivial) (fun a _ => excl_organizationalContact v a)) <|
    exclF_nil)) ?_
  simp [Place.Permits, ]

theorem excl_proofOfConcept (v : Int) (x : ProofOfConcept) : ExclC v (.place .vulnerabilityProofOfConcept) J.proofOfConcept x True := by
  refine ExclC.congr (excl_struct (
    exclF_plain (some .str) rfl (exf_plain rfl) <|
    exclF_plain (some .str) rfl (exf_plain rfl) <|
    exclF_plain (some (.list (.place .attachment))) rfl (exf_list_true (fun _ => trivial) (fun a _ => excl_attachedText v a)) <|
    exclF_nil)) ?_
  simp [Place.Permits, ]

theorem excl_vulnerabilityAnalysis (v : Int) (x : VulnerabilityAnalysis) : ExclC v (.place .vulnerabilityAnalysis) J.vulnerabilityAnalysis x True := by
  refine ExclC.congr (excl_struct (
    exclF_plain (some .str) rfl (exf_plain rfl) <|
    exclF_plain (some .str) rfl (exf_plain rfl) <|
    exclF_plain (some (.list .str)) rfl (exf_plain rfl) <|
    exclF_plain (some .str) rfl (exf_plain rfl) <|
    exclF_plain (some (.since SpecVersion1_5 .str)) rfl (exf_plain rfl) <|
    exclF_plain (some (.since SpecVersion1_5 .str)) rfl (exf_plain rfl) <|
    exclF_nil)) ?_
  simp [Place.Permits, ]

theorem excl_vulnerabilityRating (v : Int) (x : VulnerabilityRating) : ExclC v (.place .rating) J.vulnerabilityRating x True := by
  refine ExclC.congr (excl_struct (
    exclF_plain (some (.place .vulnerabilitySource)) rfl (exf_opt_true (fun a _ => excl_source v a)) <|
    exclF_plain (some .num) rfl (exf_plain rfl) <|
    exclF_plain (some .str) rfl (exf_plain rfl) <|
    exclF_plain (some .str) rfl (exf_plain rfl) <|
    exclF_plain (some .str) rfl (exf_plain rfl) <|
    exclF_plain (some .str) rfl (exf_plain rfl) <|
    exclF_nil)) ?_
  simp [Place.Permits, ]

theorem excl_vulnerabilityReference (v : Int) (x : VulnerabilityReference) : ExclC v (.place .vulnerabilityReferences) J.vulnerabilityReference x True := by
  refine ExclC.congr (excl_struct (
    exclF_plain (some .str) rfl (exf_plain rfl) <|
    exclF_plain (some (.place .vulnerabilitySource)) rfl (exf_opt_true (fun a _ => excl_source v a)) <|
    exclF_nil)) ?_
  simp [Place.Permits, ]

theorem excl_vulnerability (v : Int) (x : Vulnerability) : ExclC v (.place .vulnerability) J.vulnerability x (Vulnerability.Exclusive v x) := by
  refine ExclC.congr (excl_struct (
    exclF_plain (some .str) rfl (exf_plain rfl) <|
    exclF_plain (some .str) rfl (exf_plain rfl) <|
    exclF_plain (some (.place .vulnerabilitySource)) rfl (exf_opt_true (fun a _ => excl_source v a)) <|
    exclF_plain (some (.list (.place .vulnerabilityReferences))) rfl (exf_list_true (fun _ => trivial) (fun a _ => excl_vulnerabilityReference v a)) <|
    exclF_plain (some (.list (.place .rating))) rfl (exf_list_true (fun _ => trivial) (fun a _ => excl_vulnerabilityRating v a)) <|
    exclF_plain (some (.list .int)) rfl (exf_plain rfl) <|
    exclF_plain (some .str) rfl (exf_plain rfl) <|
    exclF_plain (some .str) rfl (exf_plain rfl) <|
    exclF_plain (some .str) rfl (exf_plain rfl) <|
    exclF_plain (some (.since SpecVersion1_5 .str)) rfl (exf_plain rfl) <|
    exclF_plain (some (.since SpecVersion1_5 (.place .vulnerabilityProofOfConcept))) rfl (exf_since (exf_opt_true (fun a _ => excl_proofOfConcept v a))) <|
    exclF_plain (some (.list (.place .advisory))) rfl (exf_list_true (fun _ => trivial) (fun a _ => excl_advisory v a)) <|
    exclF_plain (some .str) rfl (exf_plain rfl) <|
    exclF_plain (some .str) rfl (exf_plain rfl) <|
    exclF_plain (some .str) rfl (exf_plain rfl) <|
    exclF_plain (some (.since SpecVersion1_5 .str)) rfl (exf_plain rfl) <|
    exclF_plain (some (.place .vulnerabilityCredits)) rfl (exf_opt_true (fun a _ => excl_credits v a)) <|
    exclF_field (some (.alt (.list (.place .tool)) (.since SpecVersion1_5 (.place .tools)))) rfl (exf_opt (fun a _ => excl_toolsChoice v a)) <|
    exclF_plain (some (.place .vulnerabilityAnalysis)) rfl (exf_opt_true (fun a _ => excl_vulnerabilityAnalysis v a)) <|
    exclF_field (some (.list (.place .vulnerabilityAffects))) rfl (exf_list (fun _ => trivial) (fun a _ => excl_affects v a)) <|
    exclF_plain (some (.list (.place .property))) rfl (exf_list_true (fun _ => trivial) (fun a _ => excl_property v a)) <|
    exclF_nil)) ?_
  simp [Place.Permits, Vulnerability.Exclusive, Vulnerability.toP]

theorem excl_citation (v : Int) (x : Citation) : ExclC v (.place .citation) J.citation x (Citation.Exclusive v x) := by
  refine ExclC.congr (excl_struct (
    exclF_plain (some .str) rfl (exf_plain rfl) <|
    exclF_plain (some (.list .str)) rfl (exf_plain rfl) <|
    exclF_plain (some (.list .str)) rfl (exf_plain rfl) <|
    exclF_plain (some .str) rfl (exf_plain rfl) <|
    exclF_plain (some .str) rfl (exf_plain rfl) <|
    exclF_plain (some .str) rfl (exf_plain rfl) <|
    exclF_plain (some .str) rfl (exf_plain rfl) <|
    exclF_field (some (.place .signature)) rfl (exf_opt (fun a _ => excl_jsfSignature v a)) <|
    exclF_nil)) ?_
  simp [Place.Permits, Citation.Exclusive, J.citationFields, JFields.Writes, Citation.toP, nem_string, nem_bomReference, nem_option, nem_pslice, and_assoc]

theorem excl_bom (v : Int) (x : BOM) : ExclC v (.place .bom) J.bom x (BOM.Exclusive v x) := by
  refine ExclC.congr (excl_struct (
    exclF_skip <|
    exclF_skip <|
    exclF_plain (some .str) rfl (exf_plain rfl) <|
    exclF_plain (some .str) rfl (exf_plain rfl) <|
    exclF_plain (some .str) rfl (exf_plain rfl) <|
    exclF_plain (some .str) rfl (exf_plain rfl) <|
    exclF_plain (some .int) rfl (exf_plain rfl) <|
    exclF_field (some (.place .metadata)) rfl (exf_opt (fun a _ => excl_metadata v a)) <|
    exclF_field (some (.list (.place .component))) rfl (exf_list (fun _ => trivial) (fun a _ => excl_component v a)) <|
    exclF_field (some (.list (.place .service))) rfl (exf_list (fun _ => trivial) (fun a _ => excl_service v a)) <|
    exclF_plain (some (.list (.place .externalReference))) rfl (exf_list_true (fun _ => trivial) (fun a _ => excl_externalReference v a)) <|
    exclF_plain (some (.list (.place .dependency))) rfl (exf_list_true (fun _ => trivial) (fun a _ => excl_dependency v a)) <|
    exclF_field (some (.since SpecVersion1_3 (.list (.place .compositions)))) rfl (exf_since (exf_list (fun _ => trivial) (fun a _ => excl_composition v a))) <|
    exclF_plain (some (.since SpecVersion1_5 (.list (.place .property)))) rfl (exf_since (exf_list_true (fun _ => trivial) (fun a _ => excl_property v a))) <|
    exclF_field (some (.since SpecVersion1_4 (.list (.place .vulnerability)))) rfl (exf_since (exf_list (fun _ => trivial) (fun a _ => excl_vulnerability v a))) <|
    exclF_field (some (.since SpecVersion1_5 (.list (.place .annotations)))) rfl (exf_since (exf_list (fun _ => trivial) (fun a _ => excl_annotation v a))) <|
    exclF_field (some (.since SpecVersion1_5 (.list (.place .formula)))) rfl (exf_since (exf_list (fun _ => trivial) (fun a _ => excl_formula v a))) <|
    exclF_field (some (.since SpecVersion1_6 (.place .bomDeclarations))) rfl (exf_since (exf_opt (fun a _ => excl_declarations v a))) <|
    exclF_field (some (.since SpecVersion1_6 (.place .bomDefinitions))) rfl (exf_since (exf_opt (fun a _ => excl_definitions v a))) <|
    exclF_field (some (.since SpecVersion1_7 (.list (.place .citation)))) rfl (exf_since (exf_list (fun _ => trivial) (fun a _ => excl_citation v a))) <|
    exclF_field (some (.since SpecVersion1_4 (.place .signature))) rfl (exf_since (exf_opt (fun a _ => excl_jsfSignature v a))) <|
    exclF_nil)) ?_
  simp [Place.Permits, BOM.Exclusive, BOM.toP]

end Verif
