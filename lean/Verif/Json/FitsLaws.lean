import Verif.Spec.JsonFits
import Verif.Spec.JsonSchema
import Verif.Json.StructLaws

/-!
# Which values are written as what the schema declares

GENERATED by `tools/gen_fits.py`; do not edit by hand.  `FitC v s c x Q`: when the codec `c` writes `x`, what
it writes conforms to `s` at version `v` exactly if `Q`.  For every type, at the place the schema has for it,
`Q` is `T.Fits v`.
-/

namespace Verif

set_option linter.unusedSectionVars false
set_option linter.unusedSimpArgs false

theorem conforms_str {v : Int} {j : Json} : Conforms v .str j ↔ ∃ t, j = .str t :=
  ⟨fun h => by cases h; exact ⟨_, rfl⟩, fun ⟨t, h⟩ => h ▸ .str t⟩
theorem conforms_num {v : Int} {j : Json} : Conforms v .num j ↔ ∃ t, j = .num t :=
  ⟨fun h => by cases h; exact ⟨_, rfl⟩, fun ⟨t, h⟩ => h ▸ .num t⟩
theorem conforms_int {v : Int} {j : Json} : Conforms v .int j ↔ ∃ i, j = .num (.ofInt i) :=
  ⟨fun h => by cases h; exact ⟨_, rfl⟩, fun ⟨t, h⟩ => h ▸ .int t⟩
theorem conforms_bool {v : Int} {j : Json} : Conforms v .bool j ↔ ∃ t, j = .bool t :=
  ⟨fun h => by cases h; exact ⟨_, rfl⟩, fun ⟨t, h⟩ => h ▸ .bool t⟩
theorem conforms_list {v : Int} {s : Sch} {js : List Json} :
    Conforms v (.list s) (.arr js) ↔ ∀ j ∈ js, Conforms v s j :=
  ⟨fun h => by cases h; assumption, .list⟩
theorem conforms_alt {v : Int} {s t : Sch} {j : Json} :
    Conforms v (.alt s t) j ↔ Conforms v s j ∨ Conforms v t j :=
  ⟨fun h => by cases h <;> simp_all, fun h => h.elim .left .right⟩
theorem conforms_since {v n : Int} {s : Sch} {j : Json} :
    Conforms v (.since n s) j ↔ n ≤ v ∧ Conforms v s j :=
  ⟨fun h => by cases h; constructor <;> assumption, fun h => .since h.1 h.2⟩
theorem not_conforms_null {v : Int} {s : Sch} : ¬ Conforms v s .null := by
  generalize hj : Json.null = j
  intro h
  induction h <;> simp_all
theorem not_conforms_list {v : Int} {s : Sch} {ms : List (String × Json)} : ¬ Conforms v (.list s) (.obj ms) :=
  fun h => by cases h
theorem not_conforms_list_str {v : Int} {s : Sch} {t : String} : ¬ Conforms v (.list s) (.str t) :=
  fun h => by cases h
theorem not_conforms_str {v : Int} {ms : List (String × Json)} : ¬ Conforms v .str (.obj ms) :=
  fun h => by cases h
theorem not_conforms_place {v : Int} {p : Place} {js : List Json} : ¬ Conforms v (.place p) (.arr js) :=
  fun h => by cases h
theorem not_conforms_place_str {v : Int} {p : Place} {t : String} : ¬ Conforms v (.place p) (.str t) :=
  fun h => by cases h

/-- The member is declared, and so is its value. -/
def MemberOK (v : Int) (p : Place) (m : String × Json) : Prop :=
  ∃ s, p.members.lookup m.1 = some s ∧ Conforms v s m.2

theorem conforms_place {v : Int} {p : Place} {ms : List (String × Json)} :
    Conforms v (.place p) (.obj ms) ↔ ∀ m ∈ ms, MemberOK v p m := by
  constructor
  · intro h
    cases h with
    | place σ h1 h2 => exact fun m hm => ⟨_, h1 m hm, h2 m hm⟩
  · intro h
    refine .place (fun k => (p.members.lookup k).getD .str) ?_ ?_
    · intro m hm
      obtain ⟨s, hs, _⟩ := h m hm
      rw [hs, Option.getD_some]
    · intro m hm
      obtain ⟨s, hs, hc⟩ := h m hm
      rw [hs, Option.getD_some]
      exact hc

/-- When `c` writes `a`, what it writes conforms exactly if `Q`. -/
def FitC {α : Type} (v : Int) (s : Sch) (c : JCodec α) (a : α) (Q : Prop) : Prop :=
  ∀ j, c.enc a = some j → (Conforms v s j ↔ Q)

/-- When the fields are written, every member is declared exactly if `Q`. -/
def FitF {β : Type} (v : Int) (p : Place) (F : JFields β) (b : β) (Q : Prop) : Prop :=
  ∀ ms, F.enc b = some ms → ((∀ m ∈ ms, MemberOK v p m) ↔ Q)

/-- One field: it is dropped and `Q` holds, or what is written conforms exactly if `Q`. -/
def FieldFit {α : Type} (v : Int) (s : Option Sch) (oe : Bool) (c : JCodec α) (a : α) (Q : Prop) : Prop :=
  if oe && c.empty a then Q else ∀ j, c.enc a = some j → ((∃ t, s = some t ∧ Conforms v t j) ↔ Q)

theorem FitC.congr {α : Type} {v : Int} {s : Sch} {c : JCodec α} {a : α} {P Q : Prop} (h : FitC v s c a P)
    (e : P ↔ Q) : FitC v s c a Q := fun j hj => (h j hj).trans e

theorem fitF_nil {v : Int} {p : Place} {b : Unit} : FitF v p .nil b True := by
  intro ms h
  simp only [JFields.enc, Option.some.injEq] at h
  subst h
  simp

theorem fitF_skip {v : Int} {p : Place} {α β : Type} {z : α} {F : JFields β} {b : α × β} {Q : Prop}
    (h : FitF v p F b.2 Q) : FitF v p (.skip z F) b Q := h

theorem fitF_field {v : Int} {p : Place} {α β : Type} {n : String} {oe : Bool} {c : JCodec α} {F : JFields β}
    {b : α × β} {P Q : Prop} (s : Option Sch) (hs : p.members.lookup n = s) (h1 : FieldFit v s oe c b.1 P)
    (h2 : FitF v p F b.2 Q) : FitF v p (.field n oe c F) b (P ∧ Q) := by
  intro ms h
  simp only [JFields.enc] at h
  simp only [FieldFit] at h1
  by_cases he : (oe && c.empty b.1) = true
  · rw [if_pos he] at h h1
    rw [h2 ms h]
    exact ⟨fun hq => ⟨h1, hq⟩, And.right⟩
  · rw [if_neg he] at h h1
    cases hc : c.enc b.1 with
    | none => simp [hc] at h
    | some j =>
      simp only [hc, Option.map_eq_some_iff] at h
      obtain ⟨ms', hm, rfl⟩ := h
      rw [← h1 j hc, ← h2 ms' hm]
      simp only [List.mem_cons, forall_eq_or_imp, MemberOK, hs]

theorem fitF_plain {v : Int} {p : Place} {α β : Type} {n : String} {oe : Bool} {c : JCodec α} {F : JFields β}
    {b : α × β} {Q : Prop} (s : Option Sch) (hs : p.members.lookup n = s) (h1 : FieldFit v s oe c b.1 True)
    (h2 : FitF v p F b.2 Q) : FitF v p (.field n oe c F) b Q := by
  have := fitF_field s hs h1 h2
  rwa [true_and] at this

theorem fit_struct {v : Int} {p : Place} {σ β : Type} {F : JFields β} {toP : σ → β} {ofP : β → σ} {x : σ}
    {Q : Prop} (h : FitF v p F (toP x) Q) : FitC v (.place p) (JCodec.struct F toP ofP) x Q := by
  intro j hj
  simp only [JCodec.struct, Option.map_eq_some_iff] at hj
  obtain ⟨ms, hm, rfl⟩ := hj
  rw [conforms_place]
  exact h ms hm

theorem struct_obj {σ β : Type} {F : JFields β} {toP : σ → β} {ofP : β → σ} {x : σ} {j : Json}
    (h : (JCodec.struct F toP ofP).enc x = some j) : ∃ ms, j = .obj ms := by
  simp only [JCodec.struct, Option.map_eq_some_iff] at h
  obtain ⟨ms, _, rfl⟩ := h
  exact ⟨ms, rfl⟩

theorem pslice_isNil_iff {α : Type} (p : PSlice α) : p.isNil = true ↔ p = .nil := by
  cases p <;> simp [PSlice.isNil]

/-! ### Fields -/

theorem ff_of {v : Int} {α : Type} {oe : Bool} {s : Sch} {c : JCodec α} {a : α} (h : FitC v s c a True) :
    FieldFit v (some s) oe c a True := by
  simp only [FieldFit]
  split
  · trivial
  · intro j hj
    simpa using h j hj

theorem ff_since {v n : Int} {α : Type} {s : Sch} {c : JCodec α} {a : α} {E : Prop} (h : FitC v s c a True)
    (he : c.empty a = true ↔ E) : FieldFit v (some (.since n s)) true c a (E ∨ n ≤ v) := by
  simp only [FieldFit, Bool.true_and]
  split
  · rename_i h1
    exact Or.inl (he.1 h1)
  · rename_i h1
    intro j hj
    have : ¬ E := fun e => h1 (he.2 e)
    simp [conforms_since, this, h j hj]

theorem ff_undeclared {v : Int} {α : Type} {c : JCodec α} {a : α} {E : Prop}
    (he : c.empty a = true ↔ E) : FieldFit v none true c a E := by
  simp only [FieldFit, Bool.true_and]
  split
  · rename_i h1
    exact he.1 h1
  · rename_i h1
    intro j hj
    have : ¬ E := fun e => h1 (he.2 e)
    simp [this]

theorem ff_opt {v : Int} {α : Type} {s : Sch} {c : JCodec α} {o : Option α} {P : α → Prop}
    (h : ∀ a ∈ o, FitC v s c a (P a)) : FieldFit v (some s) true (JCodec.option c) o (∀ a ∈ o, P a) := by
  cases o with
  | none => simp [FieldFit, JCodec.option]
  | some a =>
    simp only [FieldFit, JCodec.option, Option.isNone_some, Bool.and_false, Bool.false_eq_true, if_false]
    intro j hj
    simpa using h a rfl j hj

theorem ff_opt_true {v : Int} {α : Type} {s : Sch} {c : JCodec α} {o : Option α}
    (h : ∀ a ∈ o, FitC v s c a True) : FieldFit v (some s) true (JCodec.option c) o True := by
  have := ff_opt (P := fun _ => True) h
  simpa using this

theorem ff_opt_false {v : Int} {α : Type} {s : Sch} {c : JCodec α} {o : Option α}
    (h : ∀ a ∈ o, FitC v s c a False) : FieldFit v (some s) true (JCodec.option c) o (o = none) := by
  have := ff_opt (P := fun _ => False) h
  have e : (∀ a ∈ o, False) ↔ o = none := by cases o <;> simp
  rwa [e] at this

theorem ff_req_opt {v : Int} {α : Type} {s : Sch} {c : JCodec α} {o : Option α} {P : α → Prop}
    (h : ∀ a ∈ o, FitC v s c a (P a)) :
    FieldFit v (some s) false (JCodec.option c) o (o ≠ none ∧ ∀ a ∈ o, P a) := by
  simp only [FieldFit, Bool.false_and, Bool.false_eq_true, if_false]
  intro j hj
  cases o with
  | none =>
    simp only [JCodec.option, Option.some.injEq] at hj
    subst hj
    simp [not_conforms_null]
  | some a => simpa using h a rfl j hj

theorem ff_req_opt_true {v : Int} {α : Type} {s : Sch} {c : JCodec α} {o : Option α}
    (h : ∀ a ∈ o, FitC v s c a True) : FieldFit v (some s) false (JCodec.option c) o (o ≠ none) := by
  have := ff_req_opt (P := fun _ => True) h
  simpa using this

theorem fitC_since {v n : Int} {α : Type} {s : Sch} {c : JCodec α} {a : α} {P : Prop} (h : FitC v s c a P) :
    FitC v (.since n s) c a (n ≤ v ∧ P) := by
  intro j hj
  rw [conforms_since, h j hj]

theorem ff_opt_since {v n : Int} {α : Type} {s : Sch} {c : JCodec α} {o : Option α} {P : α → Prop}
    (h : ∀ a ∈ o, FitC v s c a (P a)) :
    FieldFit v (some (.since n s)) true (JCodec.option c) o (o = none ∨ n ≤ v ∧ ∀ a ∈ o, P a) := by
  have := ff_opt (P := fun a => n ≤ v ∧ P a) fun a ha => fitC_since (n := n) (h a ha)
  have e : (∀ a ∈ o, n ≤ v ∧ P a) ↔ (o = none ∨ n ≤ v ∧ ∀ a ∈ o, P a) := by cases o <;> simp
  rwa [e] at this

theorem ff_opt_since_true {v n : Int} {α : Type} {s : Sch} {c : JCodec α} {o : Option α}
    (h : ∀ a ∈ o, FitC v s c a True) :
    FieldFit v (some (.since n s)) true (JCodec.option c) o (o = none ∨ n ≤ v) := by
  have := ff_opt_since (n := n) (P := fun _ => True) h
  simpa using this

theorem ff_opt_undeclared {v : Int} {α : Type} {c : JCodec α} {o : Option α} :
    FieldFit v none true (JCodec.option c) o (o = none) :=
  ff_undeclared (by cases o <;> simp [JCodec.option])

theorem fitC_encList {v : Int} {α : Type} {s : Sch} {c : JCodec α} {P : α → Prop} : ∀ {xs : List α} {js : List Json},
    (∀ a ∈ xs, FitC v s c a (P a)) → JCodec.encList c xs = some js →
    ((∀ j ∈ js, Conforms v s j) ↔ ∀ a ∈ xs, P a)
  | [], js, _, h => by
    simp only [JCodec.encList, Option.some.injEq] at h
    subst h
    simp
  | x :: xs, js, hx, h => by
    simp only [JCodec.encList] at h
    cases hc : c.enc x with
    | none => simp [hc] at h
    | some j =>
      simp only [hc, Option.map_eq_some_iff] at h
      obtain ⟨js', h', rfl⟩ := h
      have ih := fitC_encList (fun a ha => hx a (List.mem_cons_of_mem _ ha)) h'
      simp only [List.mem_cons, forall_eq_or_imp, ih, hx x (by simp) j hc]

theorem fit_list {v : Int} {α : Type} {s : Sch} {c : JCodec α} {p : PSlice α} {P : α → Prop}
    (h : ∀ a ∈ p.elems, FitC v s c a (P a)) :
    FitC v (.list s) (JCodec.pslice c) p (p ≠ .nil ∧ p ≠ .nilSlice ∧ ∀ a ∈ p.elems, P a) := by
  intro j hj
  cases p with
  | nil =>
    simp only [JCodec.pslice, Option.some.injEq] at hj
    subst hj
    simp [not_conforms_null]
  | nilSlice =>
    simp only [JCodec.pslice, Option.some.injEq] at hj
    subst hj
    simp [not_conforms_null]
  | list xs =>
    simp only [JCodec.pslice, Option.map_eq_some_iff] at hj
    obtain ⟨js, h', rfl⟩ := hj
    simp only [PSlice.elems] at h ⊢
    simp [conforms_list, fitC_encList h h']

theorem ff_list {v : Int} {α : Type} {s : Sch} {c : JCodec α} {p : PSlice α} {P : α → Prop}
    (h : ∀ a ∈ p.elems, FitC v s c a (P a)) :
    FieldFit v (some (.list s)) true (JCodec.pslice c) p (p ≠ .nilSlice ∧ ∀ a ∈ p.elems, P a) := by
  by_cases hp : p = .nil
  · subst hp; simp [FieldFit, JCodec.pslice, PSlice.isNil, PSlice.elems]
  · have hn : (JCodec.pslice c).empty p = false := by cases p <;> simp_all [JCodec.pslice, PSlice.isNil]
    simp only [FieldFit, hn, Bool.and_false, Bool.false_eq_true, if_false]
    intro j hj
    simpa [hp] using fit_list h j hj

theorem ff_req_list {v : Int} {α : Type} {s : Sch} {c : JCodec α} {p : PSlice α} {P : α → Prop}
    (h : ∀ a ∈ p.elems, FitC v s c a (P a)) :
    FieldFit v (some (.list s)) false (JCodec.pslice c) p (p ≠ .nil ∧ p ≠ .nilSlice ∧ ∀ a ∈ p.elems, P a) := by
  simp only [FieldFit, Bool.false_and, Bool.false_eq_true, if_false]
  intro j hj
  simpa using fit_list h j hj

theorem ff_list_true {v : Int} {α : Type} {s : Sch} {c : JCodec α} {p : PSlice α}
    (h : ∀ a ∈ p.elems, FitC v s c a True) :
    FieldFit v (some (.list s)) true (JCodec.pslice c) p (p ≠ .nilSlice) := by
  have := ff_list (P := fun _ => True) h
  simpa using this

theorem ff_list_since {v n : Int} {α : Type} {s : Sch} {c : JCodec α} {p : PSlice α} {P : α → Prop}
    (h : ∀ a ∈ p.elems, FitC v s c a (P a)) :
    FieldFit v (some (.since n (.list s))) true (JCodec.pslice c) p
      (p = .nil ∨ n ≤ v ∧ p ≠ .nilSlice ∧ ∀ a ∈ p.elems, P a) := by
  by_cases hp : p = .nil
  · subst hp; simp [FieldFit, JCodec.pslice, PSlice.isNil]
  · have hn : (JCodec.pslice c).empty p = false := by cases p <;> simp_all [JCodec.pslice, PSlice.isNil]
    simp only [FieldFit, hn, Bool.and_false, Bool.false_eq_true, if_false]
    intro j hj
    simpa [hp] using fitC_since (n := n) (fit_list h) j hj

theorem ff_list_since_true {v n : Int} {α : Type} {s : Sch} {c : JCodec α} {p : PSlice α}
    (h : ∀ a ∈ p.elems, FitC v s c a True) :
    FieldFit v (some (.since n (.list s))) true (JCodec.pslice c) p (p = .nil ∨ n ≤ v ∧ p ≠ .nilSlice) := by
  have := ff_list_since (n := n) (P := fun _ => True) h
  simpa using this

theorem ff_list_undeclared {v : Int} {α : Type} {c : JCodec α} {p : PSlice α} :
    FieldFit v none true (JCodec.pslice c) p (p = .nil) :=
  ff_undeclared (by cases p <;> simp [JCodec.pslice, PSlice.isNil])

/-! ### Scalars -/

theorem fit_string (v : Int) (a : String) : FitC v .str JCodec.string a True := by
  intro j h; simp only [JCodec.string, Option.some.injEq] at h; subst h; simp [conforms_str]
theorem fit_bool (v : Int) (a : Bool) : FitC v .bool JCodec.bool a True := by
  intro j h; simp only [JCodec.bool, Option.some.injEq] at h; subst h; simp [conforms_bool]
theorem fit_int (v : Int) (a : Int) : FitC v .int JCodec.int a True := by
  intro j h; simp only [JCodec.int, Option.some.injEq] at h; subst h
  exact iff_true_intro (.int a)
theorem fit_bomReference (v : Int) (a : BOMReference) : FitC v .str J.bomReference a True := by
  intro j h; simp only [J.bomReference, Option.some.injEq] at h; subst h; simp [conforms_str]
theorem fit_specVersion (v : Int) (a : Int) : FitC v .str J.specVersion a True := by
  intro j h; simp only [J.specVersion, Option.some.injEq] at h; subst h; simp [conforms_str]

theorem emp_string {a : String} : JCodec.string.empty a = true ↔ a = "" := by simp [JCodec.string]
theorem emp_bomReference {a : BOMReference} : J.bomReference.empty a = true ↔ a = ⟨""⟩ := by
  cases a; simp [J.bomReference]

variable [FloatIO]

theorem fit_f32 (v : Int) (a : F32) : FitC v .num JCodec.f32 a True := by
  intro j h; simp only [JCodec.f32, Option.map_eq_some_iff] at h; obtain ⟨l, _, rfl⟩ := h
  simp [conforms_num]
theorem fit_f64 (v : Int) (a : F64) : FitC v .num JCodec.f64 a True := by
  intro j h; simp only [JCodec.f64, Option.map_eq_some_iff] at h; obtain ⟨l, _, rfl⟩ := h
  simp [conforms_num]

theorem SameAt.fitC {v : Int} {s : Sch} {α : Type} {C D : JCodec α} {a : α} {Q : Prop} (h : SameAt C D a)
    (hD : FitC v s D a Q) : FitC v s C a Q := fun j hj => hD j (h.enc ▸ hj)

theorem fit_ike {v : Int} {σ : Type} {s : Sch} {S : JCodec σ} {get : σ → BOMReference}
    {put : σ → BOMReference → σ} {x : σ} {n : Int} (ho : ∀ j, S.enc x = some j → ¬ Conforms v .str j) (h : FitC v s S x True) :
    FitC v (.alt .str (.since n s)) (J.ikev2 S get put) x (get x ≠ ⟨""⟩ ∨ n ≤ v) := by
  intro j hj
  simp only [J.ikev2] at hj
  have e : (get x).val ≠ "" ↔ get x ≠ ⟨""⟩ := by cases get x; simp
  split at hj
  · rename_i hv
    simp only [Option.some.injEq] at hj
    subst hj
    simp [conforms_alt, conforms_str, e.1 hv]
  · rename_i hv
    rw [e] at hv
    have hv' : get x = ⟨""⟩ := Classical.byContradiction hv
    simp [conforms_alt, conforms_since, ho j hj, h j hj, hv']

theorem fit_dataClassification_str (v : Int) (a : DataClassification) : FitC v .str J.dataClassification a False := by
  intro j hj
  obtain ⟨ms, rfl⟩ := struct_obj hj
  simp [not_conforms_str]

theorem fitsComponentList_iff {v : Int} (xs : List Component) : FitsComponentList v xs ↔ ∀ c ∈ xs, c.Fits v := by
  induction xs with
  | nil => simp [FitsComponentList]
  | cons x xs ih => simp [FitsComponentList, ih]
theorem fitsComponents_iff {v : Int} (p : PSlice Component) :
    FitsComponents v p ↔ p ≠ .nilSlice ∧ ∀ c ∈ p.elems, c.Fits v := by
  cases p <;> simp [FitsComponents, PSlice.elems, fitsComponentList_iff]
theorem fitsPedigreeOpt_iff {v : Int} (o : Option (Pedigree Component)) :
    FitsPedigreeOpt v o ↔ ∀ p ∈ o, FitsPedigree v p := by
  cases o <;> simp [FitsPedigreeOpt]
theorem fitsServiceList_iff {v : Int} (xs : List Service) : FitsServiceList v xs ↔ ∀ c ∈ xs, c.Fits v := by
  induction xs with
  | nil => simp [FitsServiceList]
  | cons x xs ih => simp [FitsServiceList, ih]
theorem fitsServices_iff {v : Int} (p : PSlice Service) :
    FitsServices v p ↔ p ≠ .nilSlice ∧ ∀ c ∈ p.elems, c.Fits v := by
  cases p <;> simp [FitsServices, PSlice.elems, fitsServiceList_iff]


theorem fit_advisory (v : Int) (x : Advisory) : FitC v (.place .advisory) J.advisory x True :=
  fit_struct (
    fitF_plain (some .str) rfl (ff_of (fit_string v _)) <|
    fitF_plain (some .str) rfl (ff_of (fit_string v _)) <|
    fitF_nil)

theorem fit_affectedVersions (v : Int) (x : AffectedVersions) : FitC v (.place .affectedVersions) J.affectedVersions x True :=
  fit_struct (
    fitF_plain (some .str) rfl (ff_of (fit_string v _)) <|
    fitF_plain (some .str) rfl (ff_of (fit_string v _)) <|
    fitF_plain (some .str) rfl (ff_of (fit_string v _)) <|
    fitF_nil)

theorem fit_affects (v : Int) (x : Affects) : FitC v (.place .vulnerabilityAffects) J.affects x (Affects.Fits v x) := by
  refine FitC.congr (fit_struct (
    fitF_plain (some .str) rfl (ff_of (fit_string v _)) <|
    fitF_field (some (.list (.place .affectedVersions))) rfl (ff_list_true (fun a _ => fit_affectedVersions v a)) <|
    fitF_nil)) ?_
  simp only [Affects.Fits, Affects.toP, and_true, and_assoc]

theorem fit_attachedText (v : Int) (x : AttachedText) : FitC v (.place .attachment) J.attachedText x True :=
  fit_struct (
    fitF_plain (some .str) rfl (ff_of (fit_string v _)) <|
    fitF_plain (some .str) rfl (ff_of (fit_string v _)) <|
    fitF_plain (some .str) rfl (ff_of (fit_string v _)) <|
    fitF_nil)

theorem fit_property (v : Int) (x : Property) : FitC v (.place .property) J.property x True :=
  fit_struct (
    fitF_plain (some .str) rfl (ff_of (fit_string v _)) <|
    fitF_plain (some .str) rfl (ff_of (fit_string v _)) <|
    fitF_nil)

theorem fit_componentDataContents (v : Int) (x : ComponentDataContents) : FitC v (.place .componentDataContents) J.componentDataContents x (ComponentDataContents.Fits v x) := by
  refine FitC.congr (fit_struct (
    fitF_plain (some (.place .attachment)) rfl (ff_opt_true (fun a _ => fit_attachedText v a)) <|
    fitF_plain (some .str) rfl (ff_of (fit_string v _)) <|
    fitF_field (some (.list (.place .property))) rfl (ff_list_true (fun a _ => fit_property v a)) <|
    fitF_nil)) ?_
  simp only [ComponentDataContents.Fits, ComponentDataContents.toP, and_true, and_assoc]

theorem fit_componentDataGraphic (v : Int) (x : ComponentDataGraphic) : FitC v (.place .graphic) J.componentDataGraphic x True :=
  fit_struct (
    fitF_plain (some .str) rfl (ff_of (fit_string v _)) <|
    fitF_plain (some (.place .attachment)) rfl (ff_opt_true (fun a _ => fit_attachedText v a)) <|
    fitF_nil)

theorem fit_componentDataGraphics (v : Int) (x : ComponentDataGraphics) : FitC v (.place .graphicsCollection) J.componentDataGraphics x (ComponentDataGraphics.Fits v x) := by
  refine FitC.congr (fit_struct (
    fitF_plain (some .str) rfl (ff_of (fit_string v _)) <|
    fitF_field (some (.list (.place .graphic))) rfl (ff_list_true (fun a _ => fit_componentDataGraphic v a)) <|
    fitF_nil)) ?_
  simp only [ComponentDataGraphics.Fits, ComponentDataGraphics.toP, and_true, and_assoc]

theorem fit_organizationalContact (v : Int) (x : OrganizationalContact) : FitC v (.place .organizationalContact) J.organizationalContact x (OrganizationalContact.Fits v x) := by
  refine FitC.congr (fit_struct (
    fitF_field (some (.since SpecVersion1_5 .str)) rfl (ff_since (fit_string v _) emp_string) <|
    fitF_plain (some .str) rfl (ff_of (fit_string v _)) <|
    fitF_plain (some .str) rfl (ff_of (fit_string v _)) <|
    fitF_plain (some .str) rfl (ff_of (fit_string v _)) <|
    fitF_nil)) ?_
  simp only [OrganizationalContact.Fits, OrganizationalContact.toP, and_true, and_assoc]

theorem fit_postalAddress (v : Int) (x : PostalAddress) : FitC v (.place .postalAddress) J.postalAddress x True :=
  fit_struct (
    fitF_plain (some .str) rfl (ff_of (fit_string v _)) <|
    fitF_plain (some .str) rfl (ff_of (fit_string v _)) <|
    fitF_plain (some .str) rfl (ff_of (fit_string v _)) <|
    fitF_plain (some .str) rfl (ff_of (fit_string v _)) <|
    fitF_plain (some .str) rfl (ff_of (fit_string v _)) <|
    fitF_plain (some .str) rfl (ff_of (fit_string v _)) <|
    fitF_plain (some .str) rfl (ff_of (fit_string v _)) <|
    fitF_nil)

theorem fit_organizationalEntity (v : Int) (x : OrganizationalEntity) : FitC v (.place .organizationalEntity) J.organizationalEntity x (OrganizationalEntity.Fits v x) := by
  refine FitC.congr (fit_struct (
    fitF_field (some (.since SpecVersion1_5 .str)) rfl (ff_since (fit_string v _) emp_string) <|
    fitF_plain (some .str) rfl (ff_of (fit_string v _)) <|
    fitF_field (some (.since SpecVersion1_6 (.place .postalAddress))) rfl (ff_opt_since_true (fun a _ => fit_postalAddress v a)) <|
    fitF_field (some (.list .str)) rfl (ff_list_true (fun a _ => fit_string v a)) <|
    fitF_field (some (.list (.place .organizationalContact))) rfl (ff_list (fun a _ => fit_organizationalContact v a)) <|
    fitF_nil)) ?_
  simp only [OrganizationalEntity.Fits, OrganizationalEntity.toP, and_true, and_assoc]

theorem fit_componentDataGovernanceResponsibleParty (v : Int) (x : ComponentDataGovernanceResponsibleParty) : FitC v (.place .dataGovernanceResponsibleParty) J.componentDataGovernanceResponsibleParty x (ComponentDataGovernanceResponsibleParty.Fits v x) := by
  refine FitC.congr (fit_struct (
    fitF_field (some (.place .organizationalEntity)) rfl (ff_opt (fun a _ => fit_organizationalEntity v a)) <|
    fitF_field (some (.place .organizationalContact)) rfl (ff_opt (fun a _ => fit_organizationalContact v a)) <|
    fitF_nil)) ?_
  simp only [ComponentDataGovernanceResponsibleParty.Fits, ComponentDataGovernanceResponsibleParty.toP, and_true, and_assoc]

theorem fit_dataGovernance (v : Int) (x : DataGovernance) : FitC v (.place .dataGovernance) J.dataGovernance x (DataGovernance.Fits v x) := by
  refine FitC.congr (fit_struct (
    fitF_field (some (.list (.place .dataGovernanceResponsibleParty))) rfl (ff_list (fun a _ => fit_componentDataGovernanceResponsibleParty v a)) <|
    fitF_field (some (.list (.place .dataGovernanceResponsibleParty))) rfl (ff_list (fun a _ => fit_componentDataGovernanceResponsibleParty v a)) <|
    fitF_field (some (.list (.place .dataGovernanceResponsibleParty))) rfl (ff_list (fun a _ => fit_componentDataGovernanceResponsibleParty v a)) <|
    fitF_nil)) ?_
  simp only [DataGovernance.Fits, DataGovernance.toP, and_true, and_assoc]

theorem fit_componentData (v : Int) (x : ComponentData) : FitC v (.place .componentData) J.componentData x (ComponentData.Fits v x) := by
  refine FitC.congr (fit_struct (
    fitF_plain (some .str) rfl (ff_of (fit_string v _)) <|
    fitF_plain (some .str) rfl (ff_of (fit_string v _)) <|
    fitF_plain (some .str) rfl (ff_of (fit_string v _)) <|
    fitF_field (some (.place .componentDataContents)) rfl (ff_opt (fun a _ => fit_componentDataContents v a)) <|
    fitF_plain (some .str) rfl (ff_of (fit_string v _)) <|
    fitF_field (some (.list .str)) rfl (ff_list_true (fun a _ => fit_string v a)) <|
    fitF_field (some (.place .graphicsCollection)) rfl (ff_opt (fun a _ => fit_componentDataGraphics v a)) <|
    fitF_plain (some .str) rfl (ff_of (fit_string v _)) <|
    fitF_field (some (.place .dataGovernance)) rfl (ff_opt (fun a _ => fit_dataGovernance v a)) <|
    fitF_nil)) ?_
  simp only [ComponentData.Fits, ComponentData.toP, and_true, and_assoc]

theorem fit_componentData_modelDataset (v : Int) (x : ComponentData) : FitC v (.place .modelDataset) J.componentData x (ComponentData.Fits v x) := by
  refine FitC.congr (fit_struct (
    fitF_plain (some .str) rfl (ff_of (fit_string v _)) <|
    fitF_plain (some .str) rfl (ff_of (fit_string v _)) <|
    fitF_plain (some .str) rfl (ff_of (fit_string v _)) <|
    fitF_field (some (.place .componentDataContents)) rfl (ff_opt (fun a _ => fit_componentDataContents v a)) <|
    fitF_plain (some .str) rfl (ff_of (fit_string v _)) <|
    fitF_field (some (.list .str)) rfl (ff_list_true (fun a _ => fit_string v a)) <|
    fitF_field (some (.place .graphicsCollection)) rfl (ff_opt (fun a _ => fit_componentDataGraphics v a)) <|
    fitF_plain (some .str) rfl (ff_of (fit_string v _)) <|
    fitF_field (some (.place .dataGovernance)) rfl (ff_opt (fun a _ => fit_dataGovernance v a)) <|
    fitF_nil)) ?_
  simp only [ComponentData.Fits, ComponentData.toP, and_true, and_assoc]

theorem fit_hash (v : Int) (x : Hash) : FitC v (.place .hash) J.hash x True :=
  fit_struct (
    fitF_plain (some .str) rfl (ff_of (fit_string v _)) <|
    fitF_plain (some .str) rfl (ff_of (fit_string v _)) <|
    fitF_nil)

theorem fit_relatedCryptographicAsset (v : Int) (x : RelatedCryptographicAsset) : FitC v (.place .relatedCryptographicAsset) J.relatedCryptographicAsset x True :=
  fit_struct (
    fitF_plain (some .str) rfl (ff_of (fit_string v _)) <|
    fitF_plain (some .str) rfl (ff_of (fit_string v _)) <|
    fitF_nil)

theorem fit_predefinedCertificateState (v : Int) (x : PredefinedCertificateState) : FitC v (.place .certificateState) J.predefinedCertificateState x True :=
  fit_struct (
    fitF_plain (some .str) rfl (ff_of (fit_string v _)) <|
    fitF_plain (some .str) rfl (ff_of (fit_string v _)) <|
    fitF_nil)

theorem fit_customCertificateState (v : Int) (x : CustomCertificateState) : FitC v (.place .certificateState) J.customCertificateState x True :=
  fit_struct (
    fitF_plain (some .str) rfl (ff_of (fit_string v _)) <|
    fitF_plain (some .str) rfl (ff_of (fit_string v _)) <|
    fitF_plain (some .str) rfl (ff_of (fit_string v _)) <|
    fitF_nil)

theorem fit_certificateState (v : Int) (x : CertificateState) :
    FitC v (.place .certificateState) J.certificateState x True := by
  intro j hj
  obtain ⟨a, b⟩ := x
  cases a <;> cases b <;> simp only [J.certificateState] at hj
  · simp only [Option.some.injEq] at hj; subst hj; simp [conforms_place]
  · exact fit_customCertificateState v _ j hj
  · exact fit_predefinedCertificateState v _ j hj
  · cases hj


theorem fit_commonCertificateExtension (v : Int) (x : CommonCertificateExtension) : FitC v (.place .certificateExtension) J.commonCertificateExtension x True :=
  fit_struct (
    fitF_plain (some .str) rfl (ff_of (fit_string v _)) <|
    fitF_plain (some .str) rfl (ff_of (fit_string v _)) <|
    fitF_nil)

theorem fit_customCertificateExtension (v : Int) (x : CustomCertificateExtension) : FitC v (.place .certificateExtension) J.customCertificateExtension x True :=
  fit_struct (
    fitF_plain (some .str) rfl (ff_of (fit_string v _)) <|
    fitF_plain (some .str) rfl (ff_of (fit_string v _)) <|
    fitF_nil)

theorem fit_certificateExtension (v : Int) (x : CertificateExtension) :
    FitC v (.place .certificateExtension) J.certificateExtension x True := by
  intro j hj
  obtain ⟨a, b⟩ := x
  cases a <;> cases b <;> simp only [J.certificateExtension] at hj
  · simp only [Option.some.injEq] at hj; subst hj; simp [conforms_place]
  · exact fit_customCertificateExtension v _ j hj
  · exact fit_commonCertificateExtension v _ j hj
  · cases hj


theorem fit_certificateProperties (v : Int) (x : CertificateProperties) : FitC v (.place .certificateProperties) J.certificateProperties x (CertificateProperties.Fits v x) := by
  refine FitC.congr (fit_struct (
    fitF_field (some (.since SpecVersion1_7 .str)) rfl (ff_since (fit_string v _) emp_string) <|
    fitF_plain (some .str) rfl (ff_of (fit_string v _)) <|
    fitF_plain (some .str) rfl (ff_of (fit_string v _)) <|
    fitF_plain (some .str) rfl (ff_of (fit_string v _)) <|
    fitF_plain (some .str) rfl (ff_of (fit_string v _)) <|
    fitF_plain (some .str) rfl (ff_of (fit_bomReference v _)) <|
    fitF_plain (some .str) rfl (ff_of (fit_bomReference v _)) <|
    fitF_plain (some .str) rfl (ff_of (fit_string v _)) <|
    fitF_plain (some .str) rfl (ff_of (fit_string v _)) <|
    fitF_field (some (.since SpecVersion1_7 .str)) rfl (ff_since (fit_string v _) emp_string) <|
    fitF_field (some (.since SpecVersion1_7 (.place .hash))) rfl (ff_opt_since_true (fun a _ => fit_hash v a)) <|
    fitF_field (some (.since SpecVersion1_7 (.list (.place .certificateState)))) rfl (ff_list_since_true (fun a _ => fit_certificateState v a)) <|
    fitF_field (some (.since SpecVersion1_7 (.list (.place .certificateExtension)))) rfl (ff_list_since_true (fun a _ => fit_certificateExtension v a)) <|
    fitF_field (some (.since SpecVersion1_7 (.list (.place .relatedCryptographicAsset)))) rfl (ff_list_since_true (fun a _ => fit_relatedCryptographicAsset v a)) <|
    fitF_field (some (.since SpecVersion1_7 .str)) rfl (ff_since (fit_string v _) emp_string) <|
    fitF_field (some (.since SpecVersion1_7 .str)) rfl (ff_since (fit_string v _) emp_string) <|
    fitF_field (some (.since SpecVersion1_7 .str)) rfl (ff_since (fit_string v _) emp_string) <|
    fitF_field (some (.since SpecVersion1_7 .str)) rfl (ff_since (fit_string v _) emp_string) <|
    fitF_field (some (.since SpecVersion1_7 .str)) rfl (ff_since (fit_string v _) emp_string) <|
    fitF_nil)) ?_
  simp only [CertificateProperties.Fits, CertificateProperties.toP, and_true, and_assoc]

theorem fit_cryptoAlgorithmProperties (v : Int) (x : CryptoAlgorithmProperties) : FitC v (.place .algorithmProperties) J.cryptoAlgorithmProperties x (CryptoAlgorithmProperties.Fits v x) := by
  refine FitC.congr (fit_struct (
    fitF_plain (some .str) rfl (ff_of (fit_string v _)) <|
    fitF_plain (some .str) rfl (ff_of (fit_string v _)) <|
    fitF_field (some (.since SpecVersion1_7 .str)) rfl (ff_since (fit_string v _) emp_string) <|
    fitF_plain (some .str) rfl (ff_of (fit_string v _)) <|
    fitF_field (some (.since SpecVersion1_7 .str)) rfl (ff_since (fit_string v _) emp_string) <|
    fitF_plain (some .str) rfl (ff_of (fit_string v _)) <|
    fitF_plain (some .str) rfl (ff_of (fit_string v _)) <|
    fitF_field (some (.list .str)) rfl (ff_list_true (fun a _ => fit_string v a)) <|
    fitF_plain (some .str) rfl (ff_of (fit_string v _)) <|
    fitF_plain (some .str) rfl (ff_of (fit_string v _)) <|
    fitF_field (some (.list .str)) rfl (ff_list_true (fun a _ => fit_string v a)) <|
    fitF_plain (some .int) rfl (ff_opt_true (fun a _ => fit_int v a)) <|
    fitF_plain (some .int) rfl (ff_opt_true (fun a _ => fit_int v a)) <|
    fitF_nil)) ?_
  simp only [CryptoAlgorithmProperties.Fits, CryptoAlgorithmProperties.toP, and_true, and_assoc]

theorem fit_cipherSuite (v : Int) (x : CipherSuite) : FitC v (.place .cipherSuite) J.cipherSuite x (CipherSuite.Fits v x) := by
  refine FitC.congr (fit_struct (
    fitF_plain (some .str) rfl (ff_of (fit_string v _)) <|
    fitF_field (some (.list .str)) rfl (ff_list_true (fun a _ => fit_bomReference v a)) <|
    fitF_field (some (.list .str)) rfl (ff_list_true (fun a _ => fit_string v a)) <|
    fitF_field (some (.since SpecVersion1_7 (.list .str))) rfl (ff_list_since_true (fun a _ => fit_string v a)) <|
    fitF_field (some (.since SpecVersion1_7 (.list .str))) rfl (ff_list_since_true (fun a _ => fit_string v a)) <|
    fitF_nil)) ?_
  simp only [CipherSuite.Fits, CipherSuite.toP, and_true, and_assoc]

theorem fit_ikev2Auth (v : Int) (x : IKEv2Auth) :
    FitC v (.alt .str (.since SpecVersion1_7 (.place .ikeV2Auth))) J.ikev2Auth x (x.Fits v) := by
  refine fit_ike (fun j hj hc => by
    obtain ⟨ms, rfl⟩ := struct_obj hj; exact not_conforms_str hc) (fit_struct ?_)
  exact
    fitF_skip <|
    fitF_plain (some .str) rfl (ff_of (fit_string v _)) <|
    fitF_plain (some .str) rfl (ff_of (fit_string v _)) <|
    fitF_nil

theorem fit_ikev2Enc (v : Int) (x : IKEv2Enc) :
    FitC v (.alt .str (.since SpecVersion1_7 (.place .ikeV2Enc))) J.ikev2Enc x (x.Fits v) := by
  refine fit_ike (fun j hj hc => by
    obtain ⟨ms, rfl⟩ := struct_obj hj; exact not_conforms_str hc) (fit_struct ?_)
  exact
    fitF_skip <|
    fitF_plain (some .str) rfl (ff_of (fit_string v _)) <|
    fitF_plain (some .int) rfl (ff_opt_true (fun a _ => fit_int v a)) <|
    fitF_plain (some .str) rfl (ff_of (fit_string v _)) <|
    fitF_nil

theorem fit_ikev2Integ (v : Int) (x : IKEv2Integ) :
    FitC v (.alt .str (.since SpecVersion1_7 (.place .ikeV2Integ))) J.ikev2Integ x (x.Fits v) := by
  refine fit_ike (fun j hj hc => by
    obtain ⟨ms, rfl⟩ := struct_obj hj; exact not_conforms_str hc) (fit_struct ?_)
  exact
    fitF_skip <|
    fitF_plain (some .str) rfl (ff_of (fit_string v _)) <|
    fitF_plain (some .str) rfl (ff_of (fit_string v _)) <|
    fitF_nil

theorem fit_ikev2Ke (v : Int) (x : IKEv2Ke) :
    FitC v (.alt .str (.since SpecVersion1_7 (.place .ikeV2Ke))) J.ikev2Ke x (x.Fits v) := by
  refine fit_ike (fun j hj hc => by
    obtain ⟨ms, rfl⟩ := struct_obj hj; exact not_conforms_str hc) (fit_struct ?_)
  exact
    fitF_skip <|
    fitF_plain (some .int) rfl (ff_opt_true (fun a _ => fit_int v a)) <|
    fitF_plain (some .str) rfl (ff_of (fit_string v _)) <|
    fitF_nil

theorem fit_ikev2Prf (v : Int) (x : IKEv2Prf) :
    FitC v (.alt .str (.since SpecVersion1_7 (.place .ikeV2Prf))) J.ikev2Prf x (x.Fits v) := by
  refine fit_ike (fun j hj hc => by
    obtain ⟨ms, rfl⟩ := struct_obj hj; exact not_conforms_str hc) (fit_struct ?_)
  exact
    fitF_skip <|
    fitF_plain (some .str) rfl (ff_of (fit_string v _)) <|
    fitF_plain (some .str) rfl (ff_of (fit_string v _)) <|
    fitF_nil

theorem fit_ikev2TransformTypes (v : Int) (x : IKEv2TransformTypes) : FitC v (.place .ikev2TransformTypes) J.ikev2TransformTypes x (IKEv2TransformTypes.Fits v x) := by
  refine FitC.congr (fit_struct (
    fitF_field (some (.list (.alt .str (.since SpecVersion1_7 (.place .ikeV2Enc))))) rfl (ff_list (fun a _ => fit_ikev2Enc v a)) <|
    fitF_field (some (.list (.alt .str (.since SpecVersion1_7 (.place .ikeV2Prf))))) rfl (ff_list (fun a _ => fit_ikev2Prf v a)) <|
    fitF_field (some (.list (.alt .str (.since SpecVersion1_7 (.place .ikeV2Integ))))) rfl (ff_list (fun a _ => fit_ikev2Integ v a)) <|
    fitF_field (some (.list (.alt .str (.since SpecVersion1_7 (.place .ikeV2Ke))))) rfl (ff_list (fun a _ => fit_ikev2Ke v a)) <|
    fitF_plain (some .bool) rfl (ff_of (fit_bool v _)) <|
    fitF_field (some (.list (.alt .str (.since SpecVersion1_7 (.place .ikeV2Auth))))) rfl (ff_list (fun a _ => fit_ikev2Auth v a)) <|
    fitF_nil)) ?_
  simp only [IKEv2TransformTypes.Fits, IKEv2TransformTypes.toP, and_true, and_assoc]

theorem fit_cryptoProtocolProperties (v : Int) (x : CryptoProtocolProperties) : FitC v (.place .protocolProperties) J.cryptoProtocolProperties x (CryptoProtocolProperties.Fits v x) := by
  refine FitC.congr (fit_struct (
    fitF_plain (some .str) rfl (ff_of (fit_string v _)) <|
    fitF_plain (some .str) rfl (ff_of (fit_string v _)) <|
    fitF_field (some (.list (.place .cipherSuite))) rfl (ff_list (fun a _ => fit_cipherSuite v a)) <|
    fitF_field (some (.place .ikev2TransformTypes)) rfl (ff_opt (fun a _ => fit_ikev2TransformTypes v a)) <|
    fitF_field (some (.list .str)) rfl (ff_list_true (fun a _ => fit_bomReference v a)) <|
    fitF_field (some (.since SpecVersion1_7 (.list (.place .relatedCryptographicAsset)))) rfl (ff_list_since_true (fun a _ => fit_relatedCryptographicAsset v a)) <|
    fitF_nil)) ?_
  simp only [CryptoProtocolProperties.Fits, CryptoProtocolProperties.toP, and_true, and_assoc]

theorem fit_securedBy (v : Int) (x : SecuredBy) : FitC v (.place .securedBy) J.securedBy x True :=
  fit_struct (
    fitF_plain (some .str) rfl (ff_of (fit_string v _)) <|
    fitF_plain (some .str) rfl (ff_of (fit_bomReference v _)) <|
    fitF_nil)

theorem fit_relatedCryptoMaterialProperties (v : Int) (x : RelatedCryptoMaterialProperties) : FitC v (.place .relatedCryptoMaterialProperties) J.relatedCryptoMaterialProperties x (RelatedCryptoMaterialProperties.Fits v x) := by
  refine FitC.congr (fit_struct (
    fitF_plain (some .str) rfl (ff_of (fit_string v _)) <|
    fitF_plain (some .str) rfl (ff_of (fit_string v _)) <|
    fitF_plain (some .str) rfl (ff_of (fit_string v _)) <|
    fitF_plain (some .str) rfl (ff_of (fit_bomReference v _)) <|
    fitF_plain (some .str) rfl (ff_of (fit_string v _)) <|
    fitF_plain (some .str) rfl (ff_of (fit_string v _)) <|
    fitF_plain (some .str) rfl (ff_of (fit_string v _)) <|
    fitF_plain (some .str) rfl (ff_of (fit_string v _)) <|
    fitF_plain (some .str) rfl (ff_of (fit_string v _)) <|
    fitF_plain (some .int) rfl (ff_opt_true (fun a _ => fit_int v a)) <|
    fitF_plain (some .str) rfl (ff_of (fit_string v _)) <|
    fitF_plain (some (.place .securedBy)) rfl (ff_opt_true (fun a _ => fit_securedBy v a)) <|
    fitF_field (some (.since SpecVersion1_7 (.place .hash))) rfl (ff_opt_since_true (fun a _ => fit_hash v a)) <|
    fitF_field (some (.since SpecVersion1_7 (.list (.place .relatedCryptographicAsset)))) rfl (ff_list_since_true (fun a _ => fit_relatedCryptographicAsset v a)) <|
    fitF_nil)) ?_
  simp only [RelatedCryptoMaterialProperties.Fits, RelatedCryptoMaterialProperties.toP, and_true, and_assoc]

theorem fit_cryptoProperties (v : Int) (x : CryptoProperties) : FitC v (.place .cryptoProperties) J.cryptoProperties x (CryptoProperties.Fits v x) := by
  refine FitC.congr (fit_struct (
    fitF_plain (some .str) rfl (ff_of (fit_string v _)) <|
    fitF_field (some (.place .algorithmProperties)) rfl (ff_opt (fun a _ => fit_cryptoAlgorithmProperties v a)) <|
    fitF_field (some (.place .certificateProperties)) rfl (ff_opt (fun a _ => fit_certificateProperties v a)) <|
    fitF_field (some (.place .relatedCryptoMaterialProperties)) rfl (ff_opt (fun a _ => fit_relatedCryptoMaterialProperties v a)) <|
    fitF_field (some (.place .protocolProperties)) rfl (ff_opt (fun a _ => fit_cryptoProtocolProperties v a)) <|
    fitF_plain (some .str) rfl (ff_of (fit_string v _)) <|
    fitF_nil)) ?_
  simp only [CryptoProperties.Fits, CryptoProperties.toP, and_true, and_assoc]

theorem fit_callstackFrame (v : Int) (x : CallstackFrame) : FitC v (.place .componentEvidenceCallstackFrames) J.callstackFrame x (CallstackFrame.Fits v x) := by
  refine FitC.congr (fit_struct (
    fitF_plain (some .str) rfl (ff_of (fit_string v _)) <|
    fitF_plain (some .str) rfl (ff_of (fit_string v _)) <|
    fitF_plain (some .str) rfl (ff_of (fit_string v _)) <|
    fitF_field (some (.list .str)) rfl (ff_list_true (fun a _ => fit_string v a)) <|
    fitF_plain (some .int) rfl (ff_opt_true (fun a _ => fit_int v a)) <|
    fitF_plain (some .int) rfl (ff_opt_true (fun a _ => fit_int v a)) <|
    fitF_plain (some .str) rfl (ff_of (fit_string v _)) <|
    fitF_nil)) ?_
  simp only [CallstackFrame.Fits, CallstackFrame.toP, and_true, and_assoc]

theorem fit_callstack (v : Int) (x : Callstack) : FitC v (.place .componentEvidenceCallstack) J.callstack x (Callstack.Fits v x) := by
  refine FitC.congr (fit_struct (
    fitF_field (some (.list (.place .componentEvidenceCallstackFrames))) rfl (ff_list (fun a _ => fit_callstackFrame v a)) <|
    fitF_nil)) ?_
  simp only [Callstack.Fits, Callstack.toP, and_true, and_assoc]

theorem fit_copyright (v : Int) (x : Copyright) : FitC v (.place .copyright) J.copyright x True :=
  fit_struct (
    fitF_plain (some .str) rfl (ff_of (fit_string v _)) <|
    fitF_nil)

theorem fit_evidenceIdentityMethod (v : Int) (x : EvidenceIdentityMethod) : FitC v (.place .componentIdentityEvidenceMethods) J.evidenceIdentityMethod x True :=
  fit_struct (
    fitF_plain (some .str) rfl (ff_of (fit_string v _)) <|
    fitF_plain (some .num) rfl (ff_opt_true (fun a _ => fit_f32 v a)) <|
    fitF_plain (some .str) rfl (ff_of (fit_string v _)) <|
    fitF_nil)

theorem fit_evidenceIdentity (v : Int) (x : EvidenceIdentity) : FitC v (.place .componentIdentityEvidence) J.evidenceIdentity x (EvidenceIdentity.Fits v x) := by
  refine FitC.congr (fit_struct (
    fitF_plain (some .str) rfl (ff_of (fit_string v _)) <|
    fitF_plain (some .num) rfl (ff_opt_true (fun a _ => fit_f32 v a)) <|
    fitF_field (some (.since SpecVersion1_6 .str)) rfl (ff_since (fit_string v _) emp_string) <|
    fitF_field (some (.list (.place .componentIdentityEvidenceMethods))) rfl (ff_list_true (fun a _ => fit_evidenceIdentityMethod v a)) <|
    fitF_field (some (.list .str)) rfl (ff_list_true (fun a _ => fit_bomReference v a)) <|
    fitF_nil)) ?_
  simp only [EvidenceIdentity.Fits, EvidenceIdentity.toP, and_true, and_assoc]

theorem fit_evidenceIdentityChoice (v : Int) (x : EvidenceIdentityChoice) :
    FitC v (.alt (.since SpecVersion1_6 (.list (.place .componentIdentityEvidence))) (.place .componentIdentityEvidence)) J.evidenceIdentityChoice x (x.Fits v) := by
  intro j hj
  obtain ⟨a, p⟩ := x
  simp only [J.evidenceIdentityChoice] at hj
  cases a with
  | some i =>
    simp only at hj
    split at hj
    · cases hj
    · rename_i hp
      have hp : p = .nil := by cases p <;> simp_all [PSlice.isNil]
      subst hp
      obtain ⟨ms, rfl⟩ := struct_obj hj
      have := fit_evidenceIdentity v i _ hj
      simp [conforms_alt, conforms_since, not_conforms_list, this, EvidenceIdentityChoice.Fits]
  | none =>
    simp only at hj
    split at hj
    · rename_i hp
      have hp : p ≠ .nil := by cases p <;> simp_all [PSlice.isNil]
      have h := fitC_since (n := SpecVersion1_6) (fit_list (fun a _ => fit_evidenceIdentity v a)) j hj
      rw [conforms_alt, h]
      have hn : ¬ Conforms v (.place .componentIdentityEvidence) j := by
        cases p with
        | nil => exact absurd rfl hp
        | nilSlice =>
          simp only [JCodec.pslice, Option.some.injEq] at hj
          subst hj; exact not_conforms_null
        | list xs =>
          simp only [JCodec.pslice, Option.map_eq_some_iff] at hj
          obtain ⟨js, _, rfl⟩ := hj; exact not_conforms_place
      simp [hn, EvidenceIdentityChoice.Fits, hp]
    · rename_i hp
      have hp : p = .nil := by cases p <;> simp_all [PSlice.isNil]
      simp only [Option.some.injEq] at hj
      subst hj hp
      simp [not_conforms_null, EvidenceIdentityChoice.Fits]


theorem fit_evidenceOccurrence (v : Int) (x : EvidenceOccurrence) : FitC v (.place .componentEvidenceOccurrences) J.evidenceOccurrence x (EvidenceOccurrence.Fits v x) := by
  refine FitC.congr (fit_struct (
    fitF_plain (some .str) rfl (ff_of (fit_string v _)) <|
    fitF_plain (some .str) rfl (ff_of (fit_string v _)) <|
    fitF_field (some (.since SpecVersion1_6 .int)) rfl (ff_opt_since_true (fun a _ => fit_int v a)) <|
    fitF_field (some (.since SpecVersion1_6 .int)) rfl (ff_opt_since_true (fun a _ => fit_int v a)) <|
    fitF_field (some (.since SpecVersion1_6 .str)) rfl (ff_since (fit_string v _) emp_string) <|
    fitF_field (some (.since SpecVersion1_6 .str)) rfl (ff_since (fit_string v _) emp_string) <|
    fitF_nil)) ?_
  simp only [EvidenceOccurrence.Fits, EvidenceOccurrence.toP, and_true, and_assoc]

theorem fit_organizationalEntityOrContact (v : Int) (x : OrganizationalEntityOrContact) : FitC v (.place .organizationOrIndividual) J.organizationalEntityOrContact x (OrganizationalEntityOrContact.Fits v x) := by
  refine FitC.congr (fit_struct (
    fitF_field (some (.place .organizationalEntity)) rfl (ff_opt (fun a _ => fit_organizationalEntity v a)) <|
    fitF_field (some (.place .organizationalContact)) rfl (ff_opt (fun a _ => fit_organizationalContact v a)) <|
    fitF_nil)) ?_
  simp only [OrganizationalEntityOrContact.Fits, OrganizationalEntityOrContact.toP, and_true, and_assoc]

theorem fit_organizationalEntityOrContact_patentAssignee (v : Int) (x : OrganizationalEntityOrContact) : FitC v (.place .patentAssignee) J.organizationalEntityOrContact x (OrganizationalEntityOrContact.FitsPatentAssignee v x) := by
  refine FitC.congr (fit_struct (
    fitF_field none rfl (ff_opt_undeclared) <|
    fitF_field none rfl (ff_opt_undeclared) <|
    fitF_nil)) ?_
  simp only [OrganizationalEntityOrContact.FitsPatentAssignee, OrganizationalEntityOrContact.toP, and_true, and_assoc]

theorem fit_licensing (v : Int) (x : Licensing) : FitC v (.place .licensing) J.licensing x (Licensing.Fits v x) := by
  refine FitC.congr (fit_struct (
    fitF_field (some (.list .str)) rfl (ff_list_true (fun a _ => fit_string v a)) <|
    fitF_field (some (.place .organizationOrIndividual)) rfl (ff_opt (fun a _ => fit_organizationalEntityOrContact v a)) <|
    fitF_field (some (.place .organizationOrIndividual)) rfl (ff_opt (fun a _ => fit_organizationalEntityOrContact v a)) <|
    fitF_field (some (.place .organizationOrIndividual)) rfl (ff_opt (fun a _ => fit_organizationalEntityOrContact v a)) <|
    fitF_plain (some .str) rfl (ff_of (fit_string v _)) <|
    fitF_field (some (.list .str)) rfl (ff_list_true (fun a _ => fit_string v a)) <|
    fitF_plain (some .str) rfl (ff_of (fit_string v _)) <|
    fitF_plain (some .str) rfl (ff_of (fit_string v _)) <|
    fitF_nil)) ?_
  simp only [Licensing.Fits, Licensing.toP, and_true, and_assoc]

theorem fit_license (v : Int) (x : License) : FitC v (.place .license) J.license x (x.Fits v) := by
  suffices h : FitC v (.place .license) J.licenseAlias x (x.Fits v) by
    intro j hj
    simp only [J.license] at hj
    split at hj
    · cases hj
    · split at hj
      · cases hj
      · exact h j hj
  refine FitC.congr (fit_struct (
    fitF_field (some (.since SpecVersion1_5 .str)) rfl (ff_since (fit_string v _) emp_string) <|
    fitF_plain (some .str) rfl (ff_of (fit_string v _)) <|
    fitF_plain (some .str) rfl (ff_of (fit_string v _)) <|
    fitF_field (some (.since SpecVersion1_6 .str)) rfl (ff_since (fit_string v _) emp_string) <|
    fitF_plain (some (.place .attachment)) rfl (ff_opt_true (fun a _ => fit_attachedText v a)) <|
    fitF_plain (some .str) rfl (ff_of (fit_string v _)) <|
    fitF_field (some (.since SpecVersion1_5 (.place .licensing))) rfl (ff_opt_since (fun a _ => fit_licensing v a)) <|
    fitF_field (some (.since SpecVersion1_5 (.list (.place .property)))) rfl (ff_list_since_true (fun a _ => fit_property v a)) <|
    fitF_nil)) ?_
  simp only [License.Fits, License.toP, and_true, and_assoc]


theorem fit_licenseExpressionDetail (v : Int) (x : LicenseExpressionDetail) : FitC v (.place .expressionDetail) J.licenseExpressionDetail x True :=
  fit_struct (
    fitF_plain (some .str) rfl (ff_of (fit_string v _)) <|
    fitF_plain (some .str) rfl (ff_of (fit_string v _)) <|
    fitF_plain (some (.place .attachment)) rfl (ff_opt_true (fun a _ => fit_attachedText v a)) <|
    fitF_plain (some .str) rfl (ff_of (fit_string v _)) <|
    fitF_nil)

theorem fit_licenseChoice (v : Int) (x : LicenseChoice) : FitC v (.place .licenseChoice) J.licenseChoice x (LicenseChoice.Fits v x) := by
  refine FitC.congr (fit_struct (
    fitF_field (some (.place .license)) rfl (ff_opt (fun a _ => fit_license v a)) <|
    fitF_plain (some .str) rfl (ff_of (fit_string v _)) <|
    fitF_field (some (.since SpecVersion1_7 (.list (.place .expressionDetail)))) rfl (ff_list_since_true (fun a _ => fit_licenseExpressionDetail v a)) <|
    fitF_field (some (.since SpecVersion1_6 .str)) rfl (ff_opt_since_true (fun a _ => fit_string v a)) <|
    fitF_field (some (.since SpecVersion1_6 .str)) rfl (ff_since (fit_string v _) emp_string) <|
    fitF_field (some (.since SpecVersion1_7 (.place .licensing))) rfl (ff_opt_since (fun a _ => fit_licensing v a)) <|
    fitF_field (some (.since SpecVersion1_7 (.list (.place .property)))) rfl (ff_list_since_true (fun a _ => fit_property v a)) <|
    fitF_nil)) ?_
  simp only [LicenseChoice.Fits, LicenseChoice.toP, and_true, and_assoc]

theorem fit_evidence (v : Int) (x : Evidence) : FitC v (.place .componentEvidence) J.evidence x (Evidence.Fits v x) := by
  refine FitC.congr (fit_struct (
    fitF_field (some (.since SpecVersion1_5 (.alt (.since SpecVersion1_6 (.list (.place .componentIdentityEvidence))) (.place .componentIdentityEvidence)))) rfl (ff_opt_since (fun a _ => fit_evidenceIdentityChoice v a)) <|
    fitF_field (some (.since SpecVersion1_5 (.list (.place .componentEvidenceOccurrences)))) rfl (ff_list_since (fun a _ => fit_evidenceOccurrence v a)) <|
    fitF_field (some (.since SpecVersion1_5 (.place .componentEvidenceCallstack))) rfl (ff_opt_since (fun a _ => fit_callstack v a)) <|
    fitF_field (some (.list (.place .licenseChoice))) rfl (ff_list (fun a _ => fit_licenseChoice v a)) <|
    fitF_field (some (.list (.place .copyright))) rfl (ff_list_true (fun a _ => fit_copyright v a)) <|
    fitF_nil)) ?_
  simp only [Evidence.Fits, Evidence.toP, and_true, and_assoc]

theorem fit_externalReference (v : Int) (x : ExternalReference) : FitC v (.place .externalReference) J.externalReference x (ExternalReference.Fits v x) := by
  refine FitC.congr (fit_struct (
    fitF_plain (some .str) rfl (ff_of (fit_string v _)) <|
    fitF_plain (some .str) rfl (ff_of (fit_string v _)) <|
    fitF_field (some (.since SpecVersion1_3 (.list (.place .hash)))) rfl (ff_list_since_true (fun a _ => fit_hash v a)) <|
    fitF_plain (some .str) rfl (ff_of (fit_string v _)) <|
    fitF_field (some (.since SpecVersion1_7 (.list (.place .property)))) rfl (ff_list_since_true (fun a _ => fit_property v a)) <|
    fitF_nil)) ?_
  simp only [ExternalReference.Fits, ExternalReference.toP, and_true, and_assoc]

theorem fit_jsfPublicKey (v : Int) (x : JSFPublicKey) : FitC v (.place .publicKey) J.jsfPublicKey x True :=
  fit_struct (
    fitF_plain (some .str) rfl (ff_of (fit_string v _)) <|
    fitF_plain (some .str) rfl (ff_of (fit_string v _)) <|
    fitF_plain (some .str) rfl (ff_of (fit_string v _)) <|
    fitF_plain (some .str) rfl (ff_of (fit_string v _)) <|
    fitF_plain (some .str) rfl (ff_of (fit_string v _)) <|
    fitF_plain (some .str) rfl (ff_of (fit_string v _)) <|
    fitF_nil)

theorem fit_jsfSigner (v : Int) (x : JSFSigner) : FitC v (.place .signer) J.jsfSigner x (JSFSigner.Fits v x) := by
  refine FitC.congr (fit_struct (
    fitF_plain (some .str) rfl (ff_of (fit_string v _)) <|
    fitF_plain (some .str) rfl (ff_of (fit_string v _)) <|
    fitF_plain (some (.place .publicKey)) rfl (ff_of (fit_jsfPublicKey v _)) <|
    fitF_field (some (.list .str)) rfl (ff_list_true (fun a _ => fit_string v a)) <|
    fitF_field (some (.list .str)) rfl (ff_list_true (fun a _ => fit_string v a)) <|
    fitF_plain (some .str) rfl (ff_of (fit_string v _)) <|
    fitF_nil)) ?_
  simp only [JSFSigner.Fits, JSFSigner.toP, and_true, and_assoc]

theorem fit_jsfSignature (v : Int) (x : JSFSignature) : FitC v (.place .signature) J.jsfSignature x (JSFSignature.Fits v x) := by
  refine FitC.congr (fit_struct (
    fitF_skip <|
    fitF_field (some (.list (.place .signer))) rfl (ff_list (fun a _ => fit_jsfSigner v a)) <|
    fitF_field (some (.list (.place .signer))) rfl (ff_list (fun a _ => fit_jsfSigner v a)) <|
    fitF_nil)) ?_
  simp only [JSFSignature.Fits, JSFSignature.toP, and_true, and_assoc]

theorem fit_mlModelCO2Measure (v : Int) (x : MLModelCO2Measure) : FitC v (.place .co2Measure) J.mlModelCO2Measure x True :=
  fit_struct (
    fitF_plain (some .num) rfl (ff_of (fit_f32 v _)) <|
    fitF_plain (some .str) rfl (ff_of (fit_string v _)) <|
    fitF_nil)

theorem fit_mlModelEnergyMeasure (v : Int) (x : MLModelEnergyMeasure) : FitC v (.place .energyMeasure) J.mlModelEnergyMeasure x True :=
  fit_struct (
    fitF_plain (some .num) rfl (ff_of (fit_f32 v _)) <|
    fitF_plain (some .str) rfl (ff_of (fit_string v _)) <|
    fitF_nil)

theorem fit_mlModelEnergyProvider (v : Int) (x : MLModelEnergyProvider) : FitC v (.place .energyProvider) J.mlModelEnergyProvider x (MLModelEnergyProvider.Fits v x) := by
  refine FitC.congr (fit_struct (
    fitF_plain (some .str) rfl (ff_of (fit_string v _)) <|
    fitF_plain (some .str) rfl (ff_of (fit_string v _)) <|
    fitF_field (some (.place .organizationalEntity)) rfl (ff_req_opt (fun a _ => fit_organizationalEntity v a)) <|
    fitF_plain (some .str) rfl (ff_of (fit_string v _)) <|
    fitF_field (some (.place .energyMeasure)) rfl (ff_req_opt_true (fun a _ => fit_mlModelEnergyMeasure v a)) <|
    fitF_field (some (.list (.place .externalReference))) rfl (ff_list (fun a _ => fit_externalReference v a)) <|
    fitF_nil)) ?_
  simp only [MLModelEnergyProvider.Fits, MLModelEnergyProvider.toP, and_true, and_assoc]

theorem fit_mlModelEnergyConsumption (v : Int) (x : MLModelEnergyConsumption) : FitC v (.place .energyConsumption) J.mlModelEnergyConsumption x (MLModelEnergyConsumption.Fits v x) := by
  refine FitC.congr (fit_struct (
    fitF_plain (some .str) rfl (ff_of (fit_string v _)) <|
    fitF_field (some (.list (.place .energyProvider))) rfl (ff_req_list (fun a _ => fit_mlModelEnergyProvider v a)) <|
    fitF_plain (some (.place .energyMeasure)) rfl (ff_of (fit_mlModelEnergyMeasure v _)) <|
    fitF_plain (some (.place .co2Measure)) rfl (ff_opt_true (fun a _ => fit_mlModelCO2Measure v a)) <|
    fitF_plain (some (.place .co2Measure)) rfl (ff_opt_true (fun a _ => fit_mlModelCO2Measure v a)) <|
    fitF_field (some (.list (.place .property))) rfl (ff_list_true (fun a _ => fit_property v a)) <|
    fitF_nil)) ?_
  simp only [MLModelEnergyConsumption.Fits, MLModelEnergyConsumption.toP, and_true, and_assoc]

theorem fit_mlModelCardEnvironmentalConsiderations (v : Int) (x : MLModelCardEnvironmentalConsiderations) : FitC v (.place .environmentalConsiderations) J.mlModelCardEnvironmentalConsiderations x (MLModelCardEnvironmentalConsiderations.Fits v x) := by
  refine FitC.congr (fit_struct (
    fitF_field (some (.list (.place .energyConsumption))) rfl (ff_list (fun a _ => fit_mlModelEnergyConsumption v a)) <|
    fitF_field (some (.list (.place .property))) rfl (ff_list_true (fun a _ => fit_property v a)) <|
    fitF_nil)) ?_
  simp only [MLModelCardEnvironmentalConsiderations.Fits, MLModelCardEnvironmentalConsiderations.toP, and_true, and_assoc]

theorem fit_mlModelCardEthicalConsideration (v : Int) (x : MLModelCardEthicalConsideration) : FitC v (.place .risk) J.mlModelCardEthicalConsideration x True :=
  fit_struct (
    fitF_plain (some .str) rfl (ff_of (fit_string v _)) <|
    fitF_plain (some .str) rfl (ff_of (fit_string v _)) <|
    fitF_nil)

theorem fit_mlModelCardFairnessAssessment (v : Int) (x : MLModelCardFairnessAssessment) : FitC v (.place .fairnessAssessment) J.mlModelCardFairnessAssessment x True :=
  fit_struct (
    fitF_plain (some .str) rfl (ff_of (fit_string v _)) <|
    fitF_plain (some .str) rfl (ff_of (fit_string v _)) <|
    fitF_plain (some .str) rfl (ff_of (fit_string v _)) <|
    fitF_plain (some .str) rfl (ff_of (fit_string v _)) <|
    fitF_nil)

theorem fit_mlModelCardConsiderations (v : Int) (x : MLModelCardConsiderations) : FitC v (.place .modelCardConsiderations) J.mlModelCardConsiderations x (MLModelCardConsiderations.Fits v x) := by
  refine FitC.congr (fit_struct (
    fitF_field (some (.list .str)) rfl (ff_list_true (fun a _ => fit_string v a)) <|
    fitF_field (some (.list .str)) rfl (ff_list_true (fun a _ => fit_string v a)) <|
    fitF_field (some (.list .str)) rfl (ff_list_true (fun a _ => fit_string v a)) <|
    fitF_field (some (.list .str)) rfl (ff_list_true (fun a _ => fit_string v a)) <|
    fitF_field (some (.list (.place .risk))) rfl (ff_list_true (fun a _ => fit_mlModelCardEthicalConsideration v a)) <|
    fitF_field (some (.since SpecVersion1_6 (.place .environmentalConsiderations))) rfl (ff_opt_since (fun a _ => fit_mlModelCardEnvironmentalConsiderations v a)) <|
    fitF_field (some (.list (.place .fairnessAssessment))) rfl (ff_list_true (fun a _ => fit_mlModelCardFairnessAssessment v a)) <|
    fitF_nil)) ?_
  simp only [MLModelCardConsiderations.Fits, MLModelCardConsiderations.toP, and_true, and_assoc]

theorem fit_mlDatasetChoice (v : Int) (x : MLDatasetChoice) :
    FitC v (.place .modelDataset) J.mlDatasetChoice x (x.Fits v) := by
  intro j hj
  simp only [J.mlDatasetChoice] at hj
  split at hj
  · rename_i hr
    simp only [Option.some.injEq] at hj
    subst hj
    simp only [MLDatasetChoice.Fits, hr, false_implies, iff_true, conforms_place, List.mem_singleton, forall_eq]
    exact ⟨.str, rfl, .str _⟩
  · rename_i hr
    have hr : x.ref = "" := by simpa using hr
    simp only [MLDatasetChoice.Fits, hr, true_implies]
    cases hd : x.componentData with
    | none =>
      simp only [hd, Option.some.injEq] at hj; subst hj; simp [conforms_place]
    | some d =>
      simp only [hd] at hj
      simpa using fit_componentData_modelDataset v d j hj


theorem fit_mlInputOutputParameters (v : Int) (x : MLInputOutputParameters) : FitC v (.place .inputOutputMLParameters) J.mlInputOutputParameters x True :=
  fit_struct (
    fitF_plain (some .str) rfl (ff_of (fit_string v _)) <|
    fitF_nil)

theorem fit_mlModelParametersApproach (v : Int) (x : MLModelParametersApproach) : FitC v (.place .modelCardModelParametersApproach) J.mlModelParametersApproach x True :=
  fit_struct (
    fitF_plain (some .str) rfl (ff_of (fit_string v _)) <|
    fitF_nil)

theorem fit_mlModelParameters (v : Int) (x : MLModelParameters) : FitC v (.place .modelCardModelParameters) J.mlModelParameters x (MLModelParameters.Fits v x) := by
  refine FitC.congr (fit_struct (
    fitF_plain (some (.place .modelCardModelParametersApproach)) rfl (ff_opt_true (fun a _ => fit_mlModelParametersApproach v a)) <|
    fitF_plain (some .str) rfl (ff_of (fit_string v _)) <|
    fitF_plain (some .str) rfl (ff_of (fit_string v _)) <|
    fitF_plain (some .str) rfl (ff_of (fit_string v _)) <|
    fitF_field (some (.list (.place .modelDataset))) rfl (ff_list (fun a _ => fit_mlDatasetChoice v a)) <|
    fitF_field (some (.list (.place .inputOutputMLParameters))) rfl (ff_list_true (fun a _ => fit_mlInputOutputParameters v a)) <|
    fitF_field (some (.list (.place .inputOutputMLParameters))) rfl (ff_list_true (fun a _ => fit_mlInputOutputParameters v a)) <|
    fitF_nil)) ?_
  simp only [MLModelParameters.Fits, MLModelParameters.toP, and_true, and_assoc]

theorem fit_mlPerformanceMetricConfidenceInterval (v : Int) (x : MLPerformanceMetricConfidenceInterval) : FitC v (.place .performanceMetricConfidenceInterval) J.mlPerformanceMetricConfidenceInterval x True :=
  fit_struct (
    fitF_plain (some .str) rfl (ff_of (fit_string v _)) <|
    fitF_plain (some .str) rfl (ff_of (fit_string v _)) <|
    fitF_nil)

theorem fit_mlPerformanceMetric (v : Int) (x : MLPerformanceMetric) : FitC v (.place .performanceMetric) J.mlPerformanceMetric x True :=
  fit_struct (
    fitF_plain (some .str) rfl (ff_of (fit_string v _)) <|
    fitF_plain (some .str) rfl (ff_of (fit_string v _)) <|
    fitF_plain (some .str) rfl (ff_of (fit_string v _)) <|
    fitF_plain (some (.place .performanceMetricConfidenceInterval)) rfl (ff_opt_true (fun a _ => fit_mlPerformanceMetricConfidenceInterval v a)) <|
    fitF_nil)

theorem fit_mlQuantitativeAnalysis (v : Int) (x : MLQuantitativeAnalysis) : FitC v (.place .modelCardQuantitativeAnalysis) J.mlQuantitativeAnalysis x (MLQuantitativeAnalysis.Fits v x) := by
  refine FitC.congr (fit_struct (
    fitF_field (some (.list (.place .performanceMetric))) rfl (ff_list_true (fun a _ => fit_mlPerformanceMetric v a)) <|
    fitF_field (some (.place .graphicsCollection)) rfl (ff_opt (fun a _ => fit_componentDataGraphics v a)) <|
    fitF_nil)) ?_
  simp only [MLQuantitativeAnalysis.Fits, MLQuantitativeAnalysis.toP, and_true, and_assoc]

theorem fit_mlModelCard (v : Int) (x : MLModelCard) : FitC v (.place .modelCard) J.mlModelCard x (MLModelCard.Fits v x) := by
  refine FitC.congr (fit_struct (
    fitF_plain (some .str) rfl (ff_of (fit_string v _)) <|
    fitF_field (some (.place .modelCardModelParameters)) rfl (ff_opt (fun a _ => fit_mlModelParameters v a)) <|
    fitF_field (some (.place .modelCardQuantitativeAnalysis)) rfl (ff_opt (fun a _ => fit_mlQuantitativeAnalysis v a)) <|
    fitF_field (some (.place .modelCardConsiderations)) rfl (ff_opt (fun a _ => fit_mlModelCardConsiderations v a)) <|
    fitF_nil)) ?_
  simp only [MLModelCard.Fits, MLModelCard.toP, and_true, and_assoc]

theorem fit_identifiableAction (v : Int) (x : IdentifiableAction) : FitC v (.place .identifiableAction) J.identifiableAction x True :=
  fit_struct (
    fitF_plain (some .str) rfl (ff_of (fit_string v _)) <|
    fitF_plain (some .str) rfl (ff_of (fit_string v _)) <|
    fitF_plain (some .str) rfl (ff_of (fit_string v _)) <|
    fitF_nil)

theorem fit_commit (v : Int) (x : Commit) : FitC v (.place .commit) J.commit x True :=
  fit_struct (
    fitF_plain (some .str) rfl (ff_of (fit_string v _)) <|
    fitF_plain (some .str) rfl (ff_of (fit_string v _)) <|
    fitF_plain (some (.place .identifiableAction)) rfl (ff_opt_true (fun a _ => fit_identifiableAction v a)) <|
    fitF_plain (some (.place .identifiableAction)) rfl (ff_opt_true (fun a _ => fit_identifiableAction v a)) <|
    fitF_plain (some .str) rfl (ff_of (fit_string v _)) <|
    fitF_nil)

theorem fit_diff (v : Int) (x : Diff) : FitC v (.place .diff) J.diff x True :=
  fit_struct (
    fitF_plain (some (.place .attachment)) rfl (ff_opt_true (fun a _ => fit_attachedText v a)) <|
    fitF_plain (some .str) rfl (ff_of (fit_string v _)) <|
    fitF_nil)

theorem fit_source (v : Int) (x : Source) : FitC v (.place .vulnerabilitySource) J.source x True :=
  fit_struct (
    fitF_plain (some .str) rfl (ff_of (fit_string v _)) <|
    fitF_plain (some .str) rfl (ff_of (fit_string v _)) <|
    fitF_nil)

theorem fit_source_issueSource (v : Int) (x : Source) : FitC v (.place .issueSource) J.source x True :=
  fit_struct (
    fitF_plain (some .str) rfl (ff_of (fit_string v _)) <|
    fitF_plain (some .str) rfl (ff_of (fit_string v _)) <|
    fitF_nil)

theorem fit_issue (v : Int) (x : Issue) : FitC v (.place .issue) J.issue x (Issue.Fits v x) := by
  refine FitC.congr (fit_struct (
    fitF_plain (some .str) rfl (ff_of (fit_string v _)) <|
    fitF_plain (some .str) rfl (ff_of (fit_string v _)) <|
    fitF_plain (some .str) rfl (ff_of (fit_string v _)) <|
    fitF_plain (some (.place .issueSource)) rfl (ff_opt_true (fun a _ => fit_source_issueSource v a)) <|
    fitF_field (some (.list .str)) rfl (ff_list_true (fun a _ => fit_string v a)) <|
    fitF_plain (some .str) rfl (ff_of (fit_string v _)) <|
    fitF_nil)) ?_
  simp only [Issue.Fits, Issue.toP, and_true, and_assoc]

theorem fit_patch (v : Int) (x : Patch) : FitC v (.place .patch) J.patch x (Patch.Fits v x) := by
  refine FitC.congr (fit_struct (
    fitF_plain (some (.place .diff)) rfl (ff_opt_true (fun a _ => fit_diff v a)) <|
    fitF_field (some (.list (.place .issue))) rfl (ff_list (fun a _ => fit_issue v a)) <|
    fitF_plain (some .str) rfl (ff_of (fit_string v _)) <|
    fitF_nil)) ?_
  simp only [Patch.Fits, Patch.toP, and_true, and_assoc]

theorem fit_pedigreeWith (C : JCodec Component) (v : Int) (x : Pedigree Component)
    (h_ancestors : ∀ c ∈ x.ancestors.elems, FitC v (.place .component) C c (c.Fits v))
    (h_descendants : ∀ c ∈ x.descendants.elems, FitC v (.place .component) C c (c.Fits v))
    (h_variants : ∀ c ∈ x.variants.elems, FitC v (.place .component) C c (c.Fits v)) :
    FitC v (.place .componentPedigree) (J.pedigree C) x (FitsPedigree v x) := by
  refine FitC.congr (fit_struct (
    fitF_field (some (.list (.place .component))) rfl (ff_list h_ancestors) <|
    fitF_field (some (.list (.place .component))) rfl (ff_list h_descendants) <|
    fitF_field (some (.list (.place .component))) rfl (ff_list h_variants) <|
    fitF_field (some (.list (.place .commit))) rfl (ff_list_true (fun a _ => fit_commit v a)) <|
    fitF_field (some (.list (.place .patch))) rfl (ff_list (fun a _ => fit_patch v a)) <|
    fitF_plain (some .str) rfl (ff_of (fit_string v _)) <|
    fitF_nil)) ?_
  cases x
  simp only [FitsPedigree, Pedigree.toP, fitsComponents_iff, and_true, and_assoc]


theorem fit_note (v : Int) (x : Note) : FitC v (.place .note) J.note x True :=
  fit_struct (
    fitF_plain (some .str) rfl (ff_of (fit_string v _)) <|
    fitF_plain (some (.place .attachment)) rfl (ff_of (fit_attachedText v _)) <|
    fitF_nil)

theorem fit_releaseNotes (v : Int) (x : ReleaseNotes) : FitC v (.place .releaseNotes) J.releaseNotes x (ReleaseNotes.Fits v x) := by
  refine FitC.congr (fit_struct (
    fitF_plain (some .str) rfl (ff_of (fit_string v _)) <|
    fitF_plain (some .str) rfl (ff_of (fit_string v _)) <|
    fitF_plain (some .str) rfl (ff_of (fit_string v _)) <|
    fitF_plain (some .str) rfl (ff_of (fit_string v _)) <|
    fitF_plain (some .str) rfl (ff_of (fit_string v _)) <|
    fitF_plain (some .str) rfl (ff_of (fit_string v _)) <|
    fitF_field (some (.list .str)) rfl (ff_list_true (fun a _ => fit_string v a)) <|
    fitF_field (some (.list .str)) rfl (ff_list_true (fun a _ => fit_string v a)) <|
    fitF_field (some (.list (.place .issue))) rfl (ff_list (fun a _ => fit_issue v a)) <|
    fitF_field (some (.list (.place .note))) rfl (ff_list_true (fun a _ => fit_note v a)) <|
    fitF_field (some (.list (.place .property))) rfl (ff_list_true (fun a _ => fit_property v a)) <|
    fitF_nil)) ?_
  simp only [ReleaseNotes.Fits, ReleaseNotes.toP, and_true, and_assoc]

theorem fit_swid (v : Int) (x : SWID) : FitC v (.place .swid) J.swid x True :=
  fit_struct (
    fitF_plain (some (.place .attachment)) rfl (ff_opt_true (fun a _ => fit_attachedText v a)) <|
    fitF_plain (some .str) rfl (ff_of (fit_string v _)) <|
    fitF_plain (some .str) rfl (ff_of (fit_string v _)) <|
    fitF_plain (some .str) rfl (ff_of (fit_string v _)) <|
    fitF_plain (some .str) rfl (ff_of (fit_string v _)) <|
    fitF_plain (some .int) rfl (ff_opt_true (fun a _ => fit_int v a)) <|
    fitF_plain (some .bool) rfl (ff_opt_true (fun a _ => fit_bool v a)) <|
    fitF_nil)

theorem fit_asserterChoice (v : Int) (x : AsserterChoice) :
    FitC v (.alt .str (.place .asserter)) J.asserterChoice x (x.Fits v) := by
  intro j hj
  have no : ∀ (k : String) (j : Json), Place.asserter.members.lookup k = none →
      ¬ Conforms v (.alt .str (.place .asserter)) (.obj [(k, j)]) := by
    intro k j hk h
    simp only [conforms_alt, not_conforms_str, false_or, conforms_place, List.mem_singleton, forall_eq, MemberOK,
      hk] at h
    obtain ⟨s, hs, _⟩ := h
    cases hs
  obtain ⟨a, b, c⟩ := x
  simp only [AsserterChoice.Fits]
  cases a with
  | some o =>
    simp only [J.asserterChoice, Option.map_eq_some_iff] at hj
    obtain ⟨j', _, rfl⟩ := hj
    simpa using no "organization" j' rfl
  | none =>
    cases b with
    | some o =>
      simp only [J.asserterChoice, Option.map_eq_some_iff] at hj
      obtain ⟨j', _, rfl⟩ := hj
      simpa using no "individual" j' rfl
    | none =>
      cases c with
      | some o =>
        simp only [J.asserterChoice, Option.map_eq_some_iff] at hj
        obtain ⟨j', _, rfl⟩ := hj
        simpa using no "ref" j' rfl
      | none =>
        simp only [J.asserterChoice, Option.some.injEq] at hj
        subst hj
        simp [conforms_alt, conforms_place]


theorem fit_patentAssertion (v : Int) (x : PatentAssertion) : FitC v (.place .patentAssertion) J.patentAssertion x (PatentAssertion.Fits v x) := by
  refine FitC.congr (fit_struct (
    fitF_plain (some .str) rfl (ff_of (fit_string v _)) <|
    fitF_field (some (.list .str)) rfl (ff_list_true (fun a _ => fit_bomReference v a)) <|
    fitF_plain (some .str) rfl (ff_of (fit_string v _)) <|
    fitF_field (some (.alt .str (.place .asserter))) rfl (ff_req_opt (fun a _ => fit_asserterChoice v a)) <|
    fitF_plain (some .str) rfl (ff_of (fit_string v _)) <|
    fitF_nil)) ?_
  simp only [PatentAssertion.Fits, PatentAssertion.toP, and_true, and_assoc]

theorem fit_componentWith (C : JCodec Component) (v : Int) (x : Component)
    (h_components : ∀ c ∈ x.components.elems, FitC v (.place .component) C c (c.Fits v))
    (h_pedigree : ∀ p ∈ x.pedigree, FitC v (.place .componentPedigree) (J.pedigree C) p (FitsPedigree v p)) :
    FitC v (.place .component) (J.componentWith C) x (x.Fits v) := by
  refine FitC.congr (fit_struct (
    fitF_plain (some .str) rfl (ff_of (fit_string v _)) <|
    fitF_plain (some .str) rfl (ff_of (fit_string v _)) <|
    fitF_plain (some .str) rfl (ff_of (fit_string v _)) <|
    fitF_field (some (.place .organizationalEntity)) rfl (ff_opt (fun a _ => fit_organizationalEntity v a)) <|
    fitF_field (some (.since SpecVersion1_6 (.place .organizationalEntity))) rfl (ff_opt_since (fun a _ => fit_organizationalEntity v a)) <|
    fitF_plain (some .str) rfl (ff_of (fit_string v _)) <|
    fitF_field (some (.since SpecVersion1_6 (.list (.place .organizationalContact)))) rfl (ff_list_since (fun a _ => fit_organizationalContact v a)) <|
    fitF_plain (some .str) rfl (ff_of (fit_string v _)) <|
    fitF_plain (some .str) rfl (ff_of (fit_string v _)) <|
    fitF_plain (some .str) rfl (ff_of (fit_string v _)) <|
    fitF_plain (some .str) rfl (ff_of (fit_string v _)) <|
    fitF_plain (some .str) rfl (ff_of (fit_string v _)) <|
    fitF_plain (some .str) rfl (ff_of (fit_string v _)) <|
    fitF_field (some (.list (.place .hash))) rfl (ff_list_true (fun a _ => fit_hash v a)) <|
    fitF_field (some (.list (.place .licenseChoice))) rfl (ff_list (fun a _ => fit_licenseChoice v a)) <|
    fitF_plain (some .str) rfl (ff_of (fit_string v _)) <|
    fitF_plain (some .str) rfl (ff_of (fit_string v _)) <|
    fitF_plain (some .str) rfl (ff_of (fit_string v _)) <|
    fitF_field (some (.since SpecVersion1_6 (.list .str))) rfl (ff_list_since_true (fun a _ => fit_string v a)) <|
    fitF_field (some (.since SpecVersion1_6 (.list .str))) rfl (ff_list_since_true (fun a _ => fit_string v a)) <|
    fitF_plain (some (.place .swid)) rfl (ff_opt_true (fun a _ => fit_swid v a)) <|
    fitF_plain (some .bool) rfl (ff_opt_true (fun a _ => fit_bool v a)) <|
    fitF_field (some (.place .componentPedigree)) rfl (ff_opt h_pedigree) <|
    fitF_field (some (.list (.place .externalReference))) rfl (ff_list (fun a _ => fit_externalReference v a)) <|
    fitF_field (some (.since SpecVersion1_3 (.list (.place .property)))) rfl (ff_list_since_true (fun a _ => fit_property v a)) <|
    fitF_field (some (.list (.place .component))) rfl (ff_list h_components) <|
    fitF_field (some (.since SpecVersion1_3 (.place .componentEvidence))) rfl (ff_opt_since (fun a _ => fit_evidence v a)) <|
    fitF_field (some (.since SpecVersion1_4 (.place .releaseNotes))) rfl (ff_opt_since (fun a _ => fit_releaseNotes v a)) <|
    fitF_field (some (.since SpecVersion1_5 (.place .modelCard))) rfl (ff_opt_since (fun a _ => fit_mlModelCard v a)) <|
    fitF_field (some (.since SpecVersion1_5 (.list (.place .componentData)))) rfl (ff_list_since (fun a _ => fit_componentData v a)) <|
    fitF_field (some (.since SpecVersion1_6 (.place .cryptoProperties))) rfl (ff_opt_since (fun a _ => fit_cryptoProperties v a)) <|
    fitF_field (some (.since SpecVersion1_6 (.list .str))) rfl (ff_list_since_true (fun a _ => fit_string v a)) <|
    fitF_field (some (.since SpecVersion1_7 .bool)) rfl (ff_opt_since_true (fun a _ => fit_bool v a)) <|
    fitF_field (some (.since SpecVersion1_7 (.list (.place .patentAssertion)))) rfl (ff_list_since (fun a _ => fit_patentAssertion v a)) <|
    fitF_field (some (.since SpecVersion1_7 .str)) rfl (ff_since (fit_string v _) emp_string) <|
    fitF_field (some (.since SpecVersion1_4 (.place .signature))) rfl (ff_opt_since (fun a _ => fit_jsfSignature v a)) <|
    fitF_nil)) ?_
  cases x
  simp only [Component.Fits, Component.toP, fitsComponents_iff, fitsPedigreeOpt_iff, and_true, and_assoc]

theorem fit_component (v : Int) (x : Component) : FitC v (.place .component) J.component x (x.Fits v) := by
  suffices H : ∀ n (x : Component), x.height ≤ n → FitC v (.place .component) J.component x (x.Fits v) from
    H x.height x (Nat.le_refl _)
  intro n
  induction n with
  | zero => intro x h; rw [Component.height_eq] at h; omega
  | succ n ih =>
    intro x h
    refine (component_sameAt_self x).fitC ?_
    rw [Component.height_eq] at h
    have hm : max (heightComponents x.components) (heightPedigreeOpt x.pedigree) ≤ n := by omega
    rw [Nat.max_le] at hm
    have hl : ∀ p : PSlice Component, heightComponents p ≤ n →
        ∀ c ∈ p.elems, FitC v (.place .component) J.component c (c.Fits v) := by
      intro p hp
      rw [heightComponents_le] at hp
      exact fun c hc => ih c (hp c hc)
    refine fit_componentWith _ v x (hl _ hm.1) ?_
    intro p hp
    have hp : x.pedigree = some p := hp
    have hm := hm.2
    simp only [hp, heightPedigreeOpt, heightPedigree_eq, Nat.max_le] at hm
    exact fit_pedigreeWith _ v p (hl _ hm.1) (hl _ hm.2.1) (hl _ hm.2.2)


theorem fit_dataClassification (v : Int) (x : DataClassification) : FitC v (.place .serviceData) J.dataClassification x (DataClassification.Fits v x) := by
  refine FitC.congr (fit_struct (
    fitF_plain (some .str) rfl (ff_of (fit_string v _)) <|
    fitF_plain (some .str) rfl (ff_of (fit_string v _)) <|
    fitF_field (some (.since SpecVersion1_5 .str)) rfl (ff_since (fit_string v _) emp_string) <|
    fitF_field (some (.since SpecVersion1_5 .str)) rfl (ff_since (fit_string v _) emp_string) <|
    fitF_field (some (.since SpecVersion1_5 (.place .dataGovernance))) rfl (ff_opt_since (fun a _ => fit_dataGovernance v a)) <|
    fitF_field (some (.since SpecVersion1_5 (.list .str))) rfl (ff_list_since_true (fun a _ => fit_string v a)) <|
    fitF_field (some (.since SpecVersion1_5 (.list .str))) rfl (ff_list_since_true (fun a _ => fit_string v a)) <|
    fitF_nil)) ?_
  simp only [DataClassification.Fits, DataClassification.toP, and_true, and_assoc]

theorem fit_serviceWith (C : JCodec Service) (v : Int) (x : Service)
    (h_services : ∀ c ∈ x.services.elems, FitC v (.place .service) C c (c.Fits v)) :
    FitC v (.place .service) (J.serviceWith C) x (x.Fits v) := by
  refine FitC.congr (fit_struct (
    fitF_plain (some .str) rfl (ff_of (fit_string v _)) <|
    fitF_field (some (.place .organizationalEntity)) rfl (ff_opt (fun a _ => fit_organizationalEntity v a)) <|
    fitF_plain (some .str) rfl (ff_of (fit_string v _)) <|
    fitF_plain (some .str) rfl (ff_of (fit_string v _)) <|
    fitF_plain (some .str) rfl (ff_of (fit_string v _)) <|
    fitF_plain (some .str) rfl (ff_of (fit_string v _)) <|
    fitF_field (some (.list .str)) rfl (ff_list_true (fun a _ => fit_string v a)) <|
    fitF_plain (some .bool) rfl (ff_opt_true (fun a _ => fit_bool v a)) <|
    fitF_plain (some .bool) rfl (ff_opt_true (fun a _ => fit_bool v a)) <|
    fitF_field (some (.list (.place .serviceData))) rfl (ff_list (fun a _ => fit_dataClassification v a)) <|
    fitF_field (some (.list (.place .licenseChoice))) rfl (ff_list (fun a _ => fit_licenseChoice v a)) <|
    fitF_field (some (.list (.place .externalReference))) rfl (ff_list (fun a _ => fit_externalReference v a)) <|
    fitF_field (some (.since SpecVersion1_3 (.list (.place .property)))) rfl (ff_list_since_true (fun a _ => fit_property v a)) <|
    fitF_field (some (.list (.place .service))) rfl (ff_list h_services) <|
    fitF_field (some (.since SpecVersion1_4 (.place .releaseNotes))) rfl (ff_opt_since (fun a _ => fit_releaseNotes v a)) <|
    fitF_field (some (.since SpecVersion1_6 (.list .str))) rfl (ff_list_since_true (fun a _ => fit_string v a)) <|
    fitF_field (some (.since SpecVersion1_5 .str)) rfl (ff_since (fit_string v _) emp_string) <|
    fitF_field (some (.since SpecVersion1_7 (.list (.place .patentAssertion)))) rfl (ff_list_since (fun a _ => fit_patentAssertion v a)) <|
    fitF_field (some (.since SpecVersion1_4 (.place .signature))) rfl (ff_opt_since (fun a _ => fit_jsfSignature v a)) <|
    fitF_nil)) ?_
  cases x
  simp only [Service.Fits, Service.toP, fitsServices_iff, and_true, and_assoc]

theorem fit_service (v : Int) (x : Service) : FitC v (.place .service) J.service x (x.Fits v) := by
  suffices H : ∀ n (x : Service), x.height ≤ n → FitC v (.place .service) J.service x (x.Fits v) from
    H x.height x (Nat.le_refl _)
  intro n
  induction n with
  | zero => intro x h; rw [Service.height_eq] at h; omega
  | succ n ih =>
    intro x h
    refine (service_sameAt_self x).fitC ?_
    rw [Service.height_eq] at h
    have hm : heightServices x.services ≤ n := by omega
    rw [heightServices_le] at hm
    exact fit_serviceWith _ v x fun c hc => ih c (hm c hc)


theorem fit_annotator (v : Int) (x : Annotator) : FitC v (.place .annotationsAnnotator) J.annotator x (Annotator.Fits v x) := by
  refine FitC.congr (fit_struct (
    fitF_field (some (.place .organizationalEntity)) rfl (ff_opt (fun a _ => fit_organizationalEntity v a)) <|
    fitF_field (some (.place .organizationalContact)) rfl (ff_opt (fun a _ => fit_organizationalContact v a)) <|
    fitF_field (some (.place .component)) rfl (ff_opt (fun a _ => fit_component v a)) <|
    fitF_field (some (.place .service)) rfl (ff_opt (fun a _ => fit_service v a)) <|
    fitF_nil)) ?_
  simp only [Annotator.Fits, Annotator.toP, and_true, and_assoc]

theorem fit_annotation (v : Int) (x : Annotation) : FitC v (.place .annotations) J.annotation x (Annotation.Fits v x) := by
  refine FitC.congr (fit_struct (
    fitF_plain (some .str) rfl (ff_of (fit_string v _)) <|
    fitF_field (some (.list .str)) rfl (ff_list_true (fun a _ => fit_bomReference v a)) <|
    fitF_field (some (.place .annotationsAnnotator)) rfl (ff_opt (fun a _ => fit_annotator v a)) <|
    fitF_plain (some .str) rfl (ff_of (fit_string v _)) <|
    fitF_plain (some .str) rfl (ff_of (fit_string v _)) <|
    fitF_field (some (.place .signature)) rfl (ff_opt (fun a _ => fit_jsfSignature v a)) <|
    fitF_nil)) ?_
  simp only [Annotation.Fits, Annotation.toP, and_true, and_assoc]

theorem fit_assessor (v : Int) (x : Assessor) : FitC v (.place .assessors) J.assessor x (Assessor.Fits v x) := by
  refine FitC.congr (fit_struct (
    fitF_plain (some .str) rfl (ff_of (fit_bomReference v _)) <|
    fitF_plain (some .bool) rfl (ff_of (fit_bool v _)) <|
    fitF_field (some (.place .organizationalEntity)) rfl (ff_opt (fun a _ => fit_organizationalEntity v a)) <|
    fitF_nil)) ?_
  simp only [Assessor.Fits, Assessor.toP, and_true, and_assoc]

theorem fit_attestationConformance (v : Int) (x : AttestationConformance) : FitC v (.place .conformance) J.attestationConformance x (AttestationConformance.Fits v x) := by
  refine FitC.congr (fit_struct (
    fitF_plain (some .num) rfl (ff_opt_true (fun a _ => fit_f64 v a)) <|
    fitF_plain (some .str) rfl (ff_of (fit_string v _)) <|
    fitF_field (some (.list .str)) rfl (ff_list_true (fun a _ => fit_bomReference v a)) <|
    fitF_nil)) ?_
  simp only [AttestationConformance.Fits, AttestationConformance.toP, and_true, and_assoc]

theorem fit_attestationConfidence (v : Int) (x : AttestationConfidence) : FitC v (.place .confidence) J.attestationConfidence x True :=
  fit_struct (
    fitF_plain (some .num) rfl (ff_opt_true (fun a _ => fit_f64 v a)) <|
    fitF_plain (some .str) rfl (ff_of (fit_string v _)) <|
    fitF_nil)

theorem fit_attestationMap (v : Int) (x : AttestationMap) : FitC v (.place .attestationMap) J.attestationMap x (AttestationMap.Fits v x) := by
  refine FitC.congr (fit_struct (
    fitF_plain (some .str) rfl (ff_of (fit_string v _)) <|
    fitF_field (some (.list .str)) rfl (ff_list_true (fun a _ => fit_bomReference v a)) <|
    fitF_field (some (.list .str)) rfl (ff_list_true (fun a _ => fit_bomReference v a)) <|
    fitF_field (some (.place .conformance)) rfl (ff_opt (fun a _ => fit_attestationConformance v a)) <|
    fitF_plain (some (.place .confidence)) rfl (ff_opt_true (fun a _ => fit_attestationConfidence v a)) <|
    fitF_nil)) ?_
  simp only [AttestationMap.Fits, AttestationMap.toP, and_true, and_assoc]

theorem fit_attestation (v : Int) (x : Attestation) : FitC v (.place .attestations) J.attestation x (Attestation.Fits v x) := by
  refine FitC.congr (fit_struct (
    fitF_plain (some .str) rfl (ff_of (fit_string v _)) <|
    fitF_plain (some .str) rfl (ff_of (fit_bomReference v _)) <|
    fitF_field (some (.list (.place .attestationMap))) rfl (ff_list (fun a _ => fit_attestationMap v a)) <|
    fitF_field (some (.place .signature)) rfl (ff_opt (fun a _ => fit_jsfSignature v a)) <|
    fitF_nil)) ?_
  simp only [Attestation.Fits, Attestation.toP, and_true, and_assoc]

theorem fit_composition (v : Int) (x : Composition) : FitC v (.place .compositions) J.composition x (Composition.Fits v x) := by
  refine FitC.congr (fit_struct (
    fitF_field (some (.since SpecVersion1_5 .str)) rfl (ff_since (fit_string v _) emp_string) <|
    fitF_plain (some .str) rfl (ff_of (fit_string v _)) <|
    fitF_field (some (.list .str)) rfl (ff_list_true (fun a _ => fit_bomReference v a)) <|
    fitF_field (some (.list .str)) rfl (ff_list_true (fun a _ => fit_bomReference v a)) <|
    fitF_field (some (.since SpecVersion1_5 (.list .str))) rfl (ff_list_since_true (fun a _ => fit_bomReference v a)) <|
    fitF_field (some (.since SpecVersion1_4 (.place .signature))) rfl (ff_opt_since (fun a _ => fit_jsfSignature v a)) <|
    fitF_nil)) ?_
  simp only [Composition.Fits, Composition.toP, and_true, and_assoc]

theorem fit_claim (v : Int) (x : Claim) : FitC v (.place .claims) J.claim x (Claim.Fits v x) := by
  refine FitC.congr (fit_struct (
    fitF_plain (some .str) rfl (ff_of (fit_string v _)) <|
    fitF_plain (some .str) rfl (ff_of (fit_bomReference v _)) <|
    fitF_plain (some .str) rfl (ff_of (fit_string v _)) <|
    fitF_field (some (.list .str)) rfl (ff_list_true (fun a _ => fit_bomReference v a)) <|
    fitF_plain (some .str) rfl (ff_of (fit_string v _)) <|
    fitF_field (some (.list .str)) rfl (ff_list_true (fun a _ => fit_bomReference v a)) <|
    fitF_field (some (.list .str)) rfl (ff_list_true (fun a _ => fit_bomReference v a)) <|
    fitF_field (some (.list (.place .externalReference))) rfl (ff_list (fun a _ => fit_externalReference v a)) <|
    fitF_field (some (.place .signature)) rfl (ff_opt (fun a _ => fit_jsfSignature v a)) <|
    fitF_nil)) ?_
  simp only [Claim.Fits, Claim.toP, and_true, and_assoc]

theorem fit_evidenceDataContents (v : Int) (x : EvidenceDataContents) : FitC v (.place .evidenceDataContents) J.evidenceDataContents x True :=
  fit_struct (
    fitF_plain (some (.place .attachment)) rfl (ff_opt_true (fun a _ => fit_attachedText v a)) <|
    fitF_plain (some .str) rfl (ff_of (fit_string v _)) <|
    fitF_nil)

theorem fit_evidenceData (v : Int) (x : EvidenceData) : FitC v (.place .evidenceData) J.evidenceData x (EvidenceData.Fits v x) := by
  refine FitC.congr (fit_struct (
    fitF_plain (some .str) rfl (ff_of (fit_string v _)) <|
    fitF_plain (some (.place .evidenceDataContents)) rfl (ff_opt_true (fun a _ => fit_evidenceDataContents v a)) <|
    fitF_field (some .str) rfl (ff_opt_false (fun a _ => fit_dataClassification_str v a)) <|
    fitF_field (some (.list .str)) rfl (ff_list_true (fun a _ => fit_string v a)) <|
    fitF_field (some (.place .dataGovernance)) rfl (ff_opt (fun a _ => fit_dataGovernance v a)) <|
    fitF_nil)) ?_
  simp only [EvidenceData.Fits, EvidenceData.toP, and_true, and_assoc]

theorem fit_declarationEvidence (v : Int) (x : DeclarationEvidence) : FitC v (.place .evidence) J.declarationEvidence x (DeclarationEvidence.Fits v x) := by
  refine FitC.congr (fit_struct (
    fitF_plain (some .str) rfl (ff_of (fit_string v _)) <|
    fitF_plain (some .str) rfl (ff_of (fit_string v _)) <|
    fitF_plain (some .str) rfl (ff_of (fit_string v _)) <|
    fitF_field (some (.list (.place .evidenceData))) rfl (ff_list (fun a _ => fit_evidenceData v a)) <|
    fitF_plain (some .str) rfl (ff_of (fit_string v _)) <|
    fitF_plain (some .str) rfl (ff_of (fit_string v _)) <|
    fitF_field (some (.place .organizationalContact)) rfl (ff_opt (fun a _ => fit_organizationalContact v a)) <|
    fitF_field (some (.place .organizationalContact)) rfl (ff_opt (fun a _ => fit_organizationalContact v a)) <|
    fitF_field (some (.place .signature)) rfl (ff_opt (fun a _ => fit_jsfSignature v a)) <|
    fitF_nil)) ?_
  simp only [DeclarationEvidence.Fits, DeclarationEvidence.toP, and_true, and_assoc]

theorem fit_targets (v : Int) (x : Targets) : FitC v (.place .targets) J.targets x (Targets.Fits v x) := by
  refine FitC.congr (fit_struct (
    fitF_field (some (.list (.place .organizationalEntity))) rfl (ff_list (fun a _ => fit_organizationalEntity v a)) <|
    fitF_field (some (.list (.place .component))) rfl (ff_list (fun a _ => fit_component v a)) <|
    fitF_field (some (.list (.place .service))) rfl (ff_list (fun a _ => fit_service v a)) <|
    fitF_nil)) ?_
  simp only [Targets.Fits, Targets.toP, and_true, and_assoc]

theorem fit_signatory (v : Int) (x : Signatory) : FitC v (.place .affirmationSignatories) J.signatory x (Signatory.Fits v x) := by
  refine FitC.congr (fit_struct (
    fitF_plain (some .str) rfl (ff_of (fit_string v _)) <|
    fitF_plain (some .str) rfl (ff_of (fit_string v _)) <|
    fitF_field (some (.place .signature)) rfl (ff_opt (fun a _ => fit_jsfSignature v a)) <|
    fitF_field (some (.place .organizationalEntity)) rfl (ff_opt (fun a _ => fit_organizationalEntity v a)) <|
    fitF_field (some (.place .externalReference)) rfl (ff_opt (fun a _ => fit_externalReference v a)) <|
    fitF_nil)) ?_
  simp only [Signatory.Fits, Signatory.toP, and_true, and_assoc]

theorem fit_affirmation (v : Int) (x : Affirmation) : FitC v (.place .affirmation) J.affirmation x (Affirmation.Fits v x) := by
  refine FitC.congr (fit_struct (
    fitF_plain (some .str) rfl (ff_of (fit_string v _)) <|
    fitF_field (some (.list (.place .affirmationSignatories))) rfl (ff_list (fun a _ => fit_signatory v a)) <|
    fitF_field (some (.place .signature)) rfl (ff_opt (fun a _ => fit_jsfSignature v a)) <|
    fitF_nil)) ?_
  simp only [Affirmation.Fits, Affirmation.toP, and_true, and_assoc]

theorem fit_declarations (v : Int) (x : Declarations) : FitC v (.place .bomDeclarations) J.declarations x (Declarations.Fits v x) := by
  refine FitC.congr (fit_struct (
    fitF_field (some (.list (.place .assessors))) rfl (ff_list (fun a _ => fit_assessor v a)) <|
    fitF_field (some (.list (.place .attestations))) rfl (ff_list (fun a _ => fit_attestation v a)) <|
    fitF_field (some (.list (.place .claims))) rfl (ff_list (fun a _ => fit_claim v a)) <|
    fitF_field (some (.list (.place .evidence))) rfl (ff_list (fun a _ => fit_declarationEvidence v a)) <|
    fitF_field (some (.place .targets)) rfl (ff_opt (fun a _ => fit_targets v a)) <|
    fitF_field (some (.place .affirmation)) rfl (ff_opt (fun a _ => fit_affirmation v a)) <|
    fitF_field (some (.place .signature)) rfl (ff_opt (fun a _ => fit_jsfSignature v a)) <|
    fitF_nil)) ?_
  simp only [Declarations.Fits, Declarations.toP, and_true, and_assoc]

theorem fit_priorityApplication (v : Int) (x : PriorityApplication) : FitC v (.place .priorityApplication) J.priorityApplication x True :=
  fit_struct (
    fitF_plain (some .str) rfl (ff_of (fit_string v _)) <|
    fitF_plain (some .str) rfl (ff_of (fit_string v _)) <|
    fitF_plain (some .str) rfl (ff_of (fit_string v _)) <|
    fitF_nil)

theorem fit_patent (v : Int) (x : Patent) : FitC v (.place .patentOrFamily) J.patent x (Patent.Fits v x) := by
  refine FitC.congr (fit_struct (
    fitF_plain (some .str) rfl (ff_of (fit_string v _)) <|
    fitF_plain (some .str) rfl (ff_of (fit_string v _)) <|
    fitF_plain (some .str) rfl (ff_of (fit_string v _)) <|
    fitF_plain (some .str) rfl (ff_of (fit_string v _)) <|
    fitF_plain (some (.place .priorityApplication)) rfl (ff_opt_true (fun a _ => fit_priorityApplication v a)) <|
    fitF_plain (some .str) rfl (ff_of (fit_string v _)) <|
    fitF_plain (some .str) rfl (ff_of (fit_string v _)) <|
    fitF_plain (some .str) rfl (ff_of (fit_string v _)) <|
    fitF_plain (some .str) rfl (ff_of (fit_string v _)) <|
    fitF_plain (some .str) rfl (ff_of (fit_string v _)) <|
    fitF_plain (some .str) rfl (ff_of (fit_string v _)) <|
    fitF_plain (some .str) rfl (ff_of (fit_string v _)) <|
    fitF_field (some (.list (.place .patentAssignee))) rfl (ff_list (fun a _ => fit_organizationalEntityOrContact_patentAssignee v a)) <|
    fitF_field (some (.list (.place .externalReference))) rfl (ff_list (fun a _ => fit_externalReference v a)) <|
    fitF_nil)) ?_
  simp only [Patent.Fits, Patent.toP, and_true, and_assoc]

theorem fit_patentFamily (v : Int) (x : PatentFamily) : FitC v (.place .patentOrFamily) J.patentFamily x (PatentFamily.Fits v x) := by
  refine FitC.congr (fit_struct (
    fitF_plain (some .str) rfl (ff_of (fit_string v _)) <|
    fitF_plain (some .str) rfl (ff_of (fit_string v _)) <|
    fitF_plain (some (.place .priorityApplication)) rfl (ff_opt_true (fun a _ => fit_priorityApplication v a)) <|
    fitF_field (some (.list .str)) rfl (ff_list_true (fun a _ => fit_bomReference v a)) <|
    fitF_field (some (.list (.place .externalReference))) rfl (ff_list (fun a _ => fit_externalReference v a)) <|
    fitF_nil)) ?_
  simp only [PatentFamily.Fits, PatentFamily.toP, and_true, and_assoc]

theorem fit_patentChoice (v : Int) (x : PatentChoice) :
    FitC v (.place .patentOrFamily) J.patentChoice x (x.Fits v) := by
  intro j hj
  obtain ⟨a, b⟩ := x
  cases a <;> cases b <;> simp only [J.patentChoice] at hj
  · simp only [Option.some.injEq] at hj; subst hj; simp [conforms_place, PatentChoice.Fits]
  · simpa [PatentChoice.Fits] using fit_patentFamily v _ j hj
  · simpa [PatentChoice.Fits] using fit_patent v _ j hj
  · simpa [PatentChoice.Fits] using fit_patent v _ j hj


theorem fit_standardRequirement (v : Int) (x : StandardRequirement) : FitC v (.place .standardRequirements) J.standardRequirement x (StandardRequirement.Fits v x) := by
  refine FitC.congr (fit_struct (
    fitF_plain (some .str) rfl (ff_of (fit_string v _)) <|
    fitF_plain (some .str) rfl (ff_of (fit_string v _)) <|
    fitF_plain (some .str) rfl (ff_of (fit_string v _)) <|
    fitF_plain (some .str) rfl (ff_of (fit_string v _)) <|
    fitF_field (some (.list .str)) rfl (ff_list_true (fun a _ => fit_string v a)) <|
    fitF_field (some (.list .str)) rfl (ff_list_true (fun a _ => fit_string v a)) <|
    fitF_plain (some .str) rfl (ff_of (fit_string v _)) <|
    fitF_field (some (.list (.place .property))) rfl (ff_list_true (fun a _ => fit_property v a)) <|
    fitF_field (some (.list (.place .externalReference))) rfl (ff_list (fun a _ => fit_externalReference v a)) <|
    fitF_nil)) ?_
  simp only [StandardRequirement.Fits, StandardRequirement.toP, and_true, and_assoc]

theorem fit_standardLevel (v : Int) (x : StandardLevel) : FitC v (.place .standardLevels) J.standardLevel x (StandardLevel.Fits v x) := by
  refine FitC.congr (fit_struct (
    fitF_plain (some .str) rfl (ff_of (fit_string v _)) <|
    fitF_plain (some .str) rfl (ff_of (fit_string v _)) <|
    fitF_plain (some .str) rfl (ff_of (fit_string v _)) <|
    fitF_plain (some .str) rfl (ff_of (fit_string v _)) <|
    fitF_field (some (.list .str)) rfl (ff_list_true (fun a _ => fit_string v a)) <|
    fitF_nil)) ?_
  simp only [StandardLevel.Fits, StandardLevel.toP, and_true, and_assoc]

theorem fit_standardDefinition (v : Int) (x : StandardDefinition) : FitC v (.place .standard) J.standardDefinition x (StandardDefinition.Fits v x) := by
  refine FitC.congr (fit_struct (
    fitF_plain (some .str) rfl (ff_of (fit_string v _)) <|
    fitF_plain (some .str) rfl (ff_of (fit_string v _)) <|
    fitF_plain (some .str) rfl (ff_of (fit_string v _)) <|
    fitF_plain (some .str) rfl (ff_of (fit_string v _)) <|
    fitF_plain (some .str) rfl (ff_of (fit_string v _)) <|
    fitF_field (some (.list (.place .standardRequirements))) rfl (ff_list (fun a _ => fit_standardRequirement v a)) <|
    fitF_field (some (.list (.place .standardLevels))) rfl (ff_list (fun a _ => fit_standardLevel v a)) <|
    fitF_field (some (.list (.place .externalReference))) rfl (ff_list (fun a _ => fit_externalReference v a)) <|
    fitF_field (some (.place .signature)) rfl (ff_opt (fun a _ => fit_jsfSignature v a)) <|
    fitF_nil)) ?_
  simp only [StandardDefinition.Fits, StandardDefinition.toP, and_true, and_assoc]

theorem fit_definitions (v : Int) (x : Definitions) : FitC v (.place .bomDefinitions) J.definitions x (Definitions.Fits v x) := by
  refine FitC.congr (fit_struct (
    fitF_field (some (.list (.place .standard))) rfl (ff_list (fun a _ => fit_standardDefinition v a)) <|
    fitF_field (some (.since SpecVersion1_7 (.list (.place .patentOrFamily)))) rfl (ff_list_since (fun a _ => fit_patentChoice v a)) <|
    fitF_nil)) ?_
  simp only [Definitions.Fits, Definitions.toP, and_true, and_assoc]

theorem fit_dependency (v : Int) (x : Dependency) : FitC v (.place .dependency) J.dependency x (Dependency.Fits v x) := by
  refine FitC.congr (fit_struct (
    fitF_plain (some .str) rfl (ff_of (fit_string v _)) <|
    fitF_field (some (.list .str)) rfl (ff_list_true (fun a _ => fit_string v a)) <|
    fitF_field (some (.since SpecVersion1_6 (.list .str))) rfl (ff_list_since_true (fun a _ => fit_string v a)) <|
    fitF_nil)) ?_
  simp only [Dependency.Fits, Dependency.toP, and_true, and_assoc]

theorem fit_resourceReferenceChoice (v : Int) (x : ResourceReferenceChoice) : FitC v (.place .resourceReferenceChoice) J.resourceReferenceChoice x (ResourceReferenceChoice.Fits v x) := by
  refine FitC.congr (fit_struct (
    fitF_plain (some .str) rfl (ff_of (fit_string v _)) <|
    fitF_field (some (.place .externalReference)) rfl (ff_opt (fun a _ => fit_externalReference v a)) <|
    fitF_nil)) ?_
  simp only [ResourceReferenceChoice.Fits, ResourceReferenceChoice.toP, and_true, and_assoc]

theorem fit_environmentVariableChoice (v : Int) (x : EnvironmentVariableChoice) :
    FitC v (.alt .str (.place .property)) J.environmentVariableChoice x True := by
  intro j hj
  have hs : ∀ j, (if x.value ≠ "" then some (Json.str x.value) else some (.obj [])) = some j →
      (Conforms v (.alt .str (.place .property)) j ↔ True) := by
    intro j hj
    split at hj <;> (simp only [Option.some.injEq] at hj; subst hj; simp [conforms_alt, conforms_str, conforms_place])
  simp only [J.environmentVariableChoice] at hj
  split at hj
  · split at hj
    · have h := (fit_property v _ j hj).2 trivial
      simp [conforms_alt, h]
    · exact hs j hj
  · exact hs j hj


theorem fit_parameter (v : Int) (x : Parameter) : FitC v (.place .parameter) J.parameter x True :=
  fit_struct (
    fitF_plain (some .str) rfl (ff_of (fit_string v _)) <|
    fitF_plain (some .str) rfl (ff_of (fit_string v _)) <|
    fitF_plain (some .str) rfl (ff_of (fit_string v _)) <|
    fitF_nil)

theorem fit_taskInput (v : Int) (x : TaskInput) : FitC v (.place .inputType) J.taskInput x (TaskInput.Fits v x) := by
  refine FitC.congr (fit_struct (
    fitF_field (some (.place .resourceReferenceChoice)) rfl (ff_opt (fun a _ => fit_resourceReferenceChoice v a)) <|
    fitF_field (some (.list (.place .parameter))) rfl (ff_list_true (fun a _ => fit_parameter v a)) <|
    fitF_field (some (.list (.alt .str (.place .property)))) rfl (ff_list_true (fun a _ => fit_environmentVariableChoice v a)) <|
    fitF_plain (some (.place .attachment)) rfl (ff_opt_true (fun a _ => fit_attachedText v a)) <|
    fitF_field (some (.place .resourceReferenceChoice)) rfl (ff_opt (fun a _ => fit_resourceReferenceChoice v a)) <|
    fitF_field (some (.place .resourceReferenceChoice)) rfl (ff_opt (fun a _ => fit_resourceReferenceChoice v a)) <|
    fitF_field (some (.list (.place .property))) rfl (ff_list_true (fun a _ => fit_property v a)) <|
    fitF_nil)) ?_
  simp only [TaskInput.Fits, TaskInput.toP, and_true, and_assoc]

theorem fit_taskOutput (v : Int) (x : TaskOutput) : FitC v (.place .outputType) J.taskOutput x (TaskOutput.Fits v x) := by
  refine FitC.congr (fit_struct (
    fitF_field (some (.place .resourceReferenceChoice)) rfl (ff_opt (fun a _ => fit_resourceReferenceChoice v a)) <|
    fitF_field none rfl (ff_list_undeclared) <|
    fitF_field (some (.list (.alt .str (.place .property)))) rfl (ff_list_true (fun a _ => fit_environmentVariableChoice v a)) <|
    fitF_plain (some (.place .attachment)) rfl (ff_opt_true (fun a _ => fit_attachedText v a)) <|
    fitF_plain (some .str) rfl (ff_of (fit_string v _)) <|
    fitF_field (some (.place .resourceReferenceChoice)) rfl (ff_opt (fun a _ => fit_resourceReferenceChoice v a)) <|
    fitF_field (some (.place .resourceReferenceChoice)) rfl (ff_opt (fun a _ => fit_resourceReferenceChoice v a)) <|
    fitF_field (some (.list (.place .property))) rfl (ff_list_true (fun a _ => fit_property v a)) <|
    fitF_nil)) ?_
  simp only [TaskOutput.Fits, TaskOutput.toP, and_true, and_assoc]

theorem fit_taskCommand (v : Int) (x : TaskCommand) : FitC v (.place .command) J.taskCommand x (TaskCommand.Fits v x) := by
  refine FitC.congr (fit_struct (
    fitF_plain (some .str) rfl (ff_of (fit_string v _)) <|
    fitF_field (some (.list (.place .property))) rfl (ff_list_true (fun a _ => fit_property v a)) <|
    fitF_nil)) ?_
  simp only [TaskCommand.Fits, TaskCommand.toP, and_true, and_assoc]

theorem fit_taskStep (v : Int) (x : TaskStep) : FitC v (.place .step) J.taskStep x (TaskStep.Fits v x) := by
  refine FitC.congr (fit_struct (
    fitF_plain (some .str) rfl (ff_of (fit_string v _)) <|
    fitF_plain (some .str) rfl (ff_of (fit_string v _)) <|
    fitF_field (some (.list (.place .command))) rfl (ff_list (fun a _ => fit_taskCommand v a)) <|
    fitF_field (some (.list (.place .property))) rfl (ff_list_true (fun a _ => fit_property v a)) <|
    fitF_nil)) ?_
  simp only [TaskStep.Fits, TaskStep.toP, and_true, and_assoc]

theorem fit_event (v : Int) (x : Event) : FitC v (.place .event) J.event x (Event.Fits v x) := by
  refine FitC.congr (fit_struct (
    fitF_plain (some .str) rfl (ff_of (fit_string v _)) <|
    fitF_plain (some .str) rfl (ff_of (fit_string v _)) <|
    fitF_plain (some .str) rfl (ff_of (fit_string v _)) <|
    fitF_plain (some (.place .attachment)) rfl (ff_opt_true (fun a _ => fit_attachedText v a)) <|
    fitF_field (some (.place .resourceReferenceChoice)) rfl (ff_opt (fun a _ => fit_resourceReferenceChoice v a)) <|
    fitF_field (some (.place .resourceReferenceChoice)) rfl (ff_opt (fun a _ => fit_resourceReferenceChoice v a)) <|
    fitF_field (some (.list (.place .property))) rfl (ff_list_true (fun a _ => fit_property v a)) <|
    fitF_nil)) ?_
  simp only [Event.Fits, Event.toP, and_true, and_assoc]

theorem fit_taskTriggerCondition (v : Int) (x : TaskTriggerCondition) : FitC v (.place .condition) J.taskTriggerCondition x (TaskTriggerCondition.Fits v x) := by
  refine FitC.congr (fit_struct (
    fitF_plain (some .str) rfl (ff_of (fit_string v _)) <|
    fitF_plain (some .str) rfl (ff_of (fit_string v _)) <|
    fitF_field (some (.list (.place .property))) rfl (ff_list_true (fun a _ => fit_property v a)) <|
    fitF_nil)) ?_
  simp only [TaskTriggerCondition.Fits, TaskTriggerCondition.toP, and_true, and_assoc]

theorem fit_taskTrigger (v : Int) (x : TaskTrigger) : FitC v (.place .trigger) J.taskTrigger x (TaskTrigger.Fits v x) := by
  refine FitC.congr (fit_struct (
    fitF_plain (some .str) rfl (ff_of (fit_string v _)) <|
    fitF_plain (some .str) rfl (ff_of (fit_string v _)) <|
    fitF_plain (some .str) rfl (ff_of (fit_string v _)) <|
    fitF_plain (some .str) rfl (ff_of (fit_string v _)) <|
    fitF_field (some (.list (.place .resourceReferenceChoice))) rfl (ff_list (fun a _ => fit_resourceReferenceChoice v a)) <|
    fitF_plain (some .str) rfl (ff_of (fit_string v _)) <|
    fitF_field (some (.place .event)) rfl (ff_opt (fun a _ => fit_event v a)) <|
    fitF_field (some (.list (.place .condition))) rfl (ff_list (fun a _ => fit_taskTriggerCondition v a)) <|
    fitF_plain (some .str) rfl (ff_of (fit_string v _)) <|
    fitF_field (some (.list (.place .inputType))) rfl (ff_list (fun a _ => fit_taskInput v a)) <|
    fitF_field (some (.list (.place .outputType))) rfl (ff_list (fun a _ => fit_taskOutput v a)) <|
    fitF_field (some (.list (.place .property))) rfl (ff_list_true (fun a _ => fit_property v a)) <|
    fitF_nil)) ?_
  simp only [TaskTrigger.Fits, TaskTrigger.toP, and_true, and_assoc]

theorem fit_volume (v : Int) (x : Volume) : FitC v (.place .volume) J.volume x (Volume.Fits v x) := by
  refine FitC.congr (fit_struct (
    fitF_plain (some .str) rfl (ff_of (fit_string v _)) <|
    fitF_plain (some .str) rfl (ff_of (fit_string v _)) <|
    fitF_plain (some .str) rfl (ff_of (fit_string v _)) <|
    fitF_plain (some .str) rfl (ff_of (fit_string v _)) <|
    fitF_plain (some .str) rfl (ff_of (fit_string v _)) <|
    fitF_plain (some .bool) rfl (ff_opt_true (fun a _ => fit_bool v a)) <|
    fitF_plain (some .bool) rfl (ff_opt_true (fun a _ => fit_bool v a)) <|
    fitF_field (some (.list (.place .property))) rfl (ff_list_true (fun a _ => fit_property v a)) <|
    fitF_nil)) ?_
  simp only [Volume.Fits, Volume.toP, and_true, and_assoc]

theorem fit_taskWorkspace (v : Int) (x : TaskWorkspace) : FitC v (.place .workspace) J.taskWorkspace x (TaskWorkspace.Fits v x) := by
  refine FitC.congr (fit_struct (
    fitF_plain (some .str) rfl (ff_of (fit_string v _)) <|
    fitF_plain (some .str) rfl (ff_of (fit_string v _)) <|
    fitF_plain (some .str) rfl (ff_of (fit_string v _)) <|
    fitF_field (some (.list .str)) rfl (ff_list_true (fun a _ => fit_string v a)) <|
    fitF_plain (some .str) rfl (ff_of (fit_string v _)) <|
    fitF_field (some (.list (.place .resourceReferenceChoice))) rfl (ff_list (fun a _ => fit_resourceReferenceChoice v a)) <|
    fitF_plain (some .str) rfl (ff_of (fit_string v _)) <|
    fitF_plain (some .str) rfl (ff_of (fit_string v _)) <|
    fitF_plain (some .str) rfl (ff_of (fit_string v _)) <|
    fitF_plain (some .str) rfl (ff_of (fit_string v _)) <|
    fitF_field (some (.place .volume)) rfl (ff_opt (fun a _ => fit_volume v a)) <|
    fitF_field (some (.list (.place .property))) rfl (ff_list_true (fun a _ => fit_property v a)) <|
    fitF_nil)) ?_
  simp only [TaskWorkspace.Fits, TaskWorkspace.toP, and_true, and_assoc]

theorem fit_task (v : Int) (x : Task) : FitC v (.place .task) J.task x (Task.Fits v x) := by
  refine FitC.congr (fit_struct (
    fitF_plain (some .str) rfl (ff_of (fit_string v _)) <|
    fitF_plain (some .str) rfl (ff_of (fit_string v _)) <|
    fitF_plain (some .str) rfl (ff_of (fit_string v _)) <|
    fitF_plain (some .str) rfl (ff_of (fit_string v _)) <|
    fitF_field (some (.list (.place .property))) rfl (ff_list_true (fun a _ => fit_property v a)) <|
    fitF_field (some (.list (.place .resourceReferenceChoice))) rfl (ff_list (fun a _ => fit_resourceReferenceChoice v a)) <|
    fitF_field (some (.list .str)) rfl (ff_list_true (fun a _ => fit_string v a)) <|
    fitF_field (some (.place .trigger)) rfl (ff_opt (fun a _ => fit_taskTrigger v a)) <|
    fitF_field (some (.list (.place .step))) rfl (ff_list (fun a _ => fit_taskStep v a)) <|
    fitF_field (some (.list (.place .inputType))) rfl (ff_list (fun a _ => fit_taskInput v a)) <|
    fitF_field (some (.list (.place .outputType))) rfl (ff_list (fun a _ => fit_taskOutput v a)) <|
    fitF_plain (some .str) rfl (ff_of (fit_string v _)) <|
    fitF_plain (some .str) rfl (ff_of (fit_string v _)) <|
    fitF_field (some (.list (.place .workspace))) rfl (ff_list (fun a _ => fit_taskWorkspace v a)) <|
    fitF_field (some (.list (.place .dependency))) rfl (ff_list (fun a _ => fit_dependency v a)) <|
    fitF_nil)) ?_
  simp only [Task.Fits, Task.toP, and_true, and_assoc]

theorem fit_workflow (v : Int) (x : Workflow) : FitC v (.place .workflow) J.workflow x (Workflow.Fits v x) := by
  refine FitC.congr (fit_struct (
    fitF_plain (some .str) rfl (ff_of (fit_string v _)) <|
    fitF_plain (some .str) rfl (ff_of (fit_string v _)) <|
    fitF_plain (some .str) rfl (ff_of (fit_string v _)) <|
    fitF_plain (some .str) rfl (ff_of (fit_string v _)) <|
    fitF_field (some (.list (.place .resourceReferenceChoice))) rfl (ff_list (fun a _ => fit_resourceReferenceChoice v a)) <|
    fitF_field (some (.list (.place .task))) rfl (ff_list (fun a _ => fit_task v a)) <|
    fitF_field (some (.list (.place .dependency))) rfl (ff_list (fun a _ => fit_dependency v a)) <|
    fitF_field (some (.list .str)) rfl (ff_list_true (fun a _ => fit_string v a)) <|
    fitF_field (some (.place .trigger)) rfl (ff_opt (fun a _ => fit_taskTrigger v a)) <|
    fitF_field (some (.list (.place .step))) rfl (ff_list (fun a _ => fit_taskStep v a)) <|
    fitF_field (some (.list (.place .inputType))) rfl (ff_list (fun a _ => fit_taskInput v a)) <|
    fitF_field (some (.list (.place .outputType))) rfl (ff_list (fun a _ => fit_taskOutput v a)) <|
    fitF_plain (some .str) rfl (ff_of (fit_string v _)) <|
    fitF_plain (some .str) rfl (ff_of (fit_string v _)) <|
    fitF_field (some (.list (.place .workspace))) rfl (ff_list (fun a _ => fit_taskWorkspace v a)) <|
    fitF_field (some (.list (.place .dependency))) rfl (ff_list (fun a _ => fit_dependency v a)) <|
    fitF_field (some (.list (.place .property))) rfl (ff_list_true (fun a _ => fit_property v a)) <|
    fitF_nil)) ?_
  simp only [Workflow.Fits, Workflow.toP, and_true, and_assoc]

theorem fit_formula (v : Int) (x : Formula) : FitC v (.place .formula) J.formula x (Formula.Fits v x) := by
  refine FitC.congr (fit_struct (
    fitF_plain (some .str) rfl (ff_of (fit_string v _)) <|
    fitF_field (some (.list (.place .component))) rfl (ff_list (fun a _ => fit_component v a)) <|
    fitF_field (some (.list (.place .service))) rfl (ff_list (fun a _ => fit_service v a)) <|
    fitF_field (some (.list (.place .workflow))) rfl (ff_list (fun a _ => fit_workflow v a)) <|
    fitF_field (some (.list (.place .property))) rfl (ff_list_true (fun a _ => fit_property v a)) <|
    fitF_nil)) ?_
  simp only [Formula.Fits, Formula.toP, and_true, and_assoc]

theorem fit_lifecycle (v : Int) (x : Lifecycle) : FitC v (.place .metadataLifecycles) J.lifecycle x True :=
  fit_struct (
    fitF_plain (some .str) rfl (ff_of (fit_string v _)) <|
    fitF_plain (some .str) rfl (ff_of (fit_string v _)) <|
    fitF_plain (some .str) rfl (ff_of (fit_string v _)) <|
    fitF_nil)

theorem fit_tool (v : Int) (x : Tool) : FitC v (.place .tool) J.tool x (Tool.Fits v x) := by
  refine FitC.congr (fit_struct (
    fitF_plain (some .str) rfl (ff_of (fit_string v _)) <|
    fitF_plain (some .str) rfl (ff_of (fit_string v _)) <|
    fitF_plain (some .str) rfl (ff_of (fit_string v _)) <|
    fitF_field (some (.list (.place .hash))) rfl (ff_list_true (fun a _ => fit_hash v a)) <|
    fitF_field (some (.since SpecVersion1_4 (.list (.place .externalReference)))) rfl (ff_list_since (fun a _ => fit_externalReference v a)) <|
    fitF_nil)) ?_
  simp only [Tool.Fits, Tool.toP, and_true, and_assoc]

theorem fit_toolsChoice (v : Int) (x : ToolsChoice) :
    FitC v (.alt (.list (.place .tool)) (.since SpecVersion1_5 (.place .tools))) J.toolsChoice x (x.Fits v) := by
  intro j hj
  obtain ⟨t, c, s⟩ := x
  simp only [J.toolsChoice] at hj
  simp only [ToolsChoice.Fits]
  split at hj
  · cases hj
  · rename_i h1
    simp only [pslice_isNil_iff] at h1
    split at hj
    · rename_i ht
      simp only [pslice_isNil_iff] at ht
      have hcs : c = .nil ∧ s = .nil := by
        refine ⟨Classical.byContradiction fun h => h1 ⟨ht, .inl h⟩, Classical.byContradiction fun h => h1 ⟨ht, .inr h⟩⟩
      have h := fit_list (fun a _ => fit_tool v a) j hj
      have hn : ¬ Conforms v (.place .tools) j := by
        cases t with
        | nil => exact absurd rfl ht
        | nilSlice =>
          simp only [JCodec.pslice, Option.some.injEq] at hj
          subst hj; exact not_conforms_null
        | list xs =>
          simp only [JCodec.pslice, Option.map_eq_some_iff] at hj
          obtain ⟨js, _, rfl⟩ := hj; exact not_conforms_place
      rw [conforms_alt, h, conforms_since]
      simp [hn, hcs, ht]
    · rename_i ht
      simp only [pslice_isNil_iff] at ht
      have ht : t = .nil := Classical.byContradiction ht
      subst ht
      split at hj
      · rename_i hcs
        simp only [pslice_isNil_iff] at hcs
        obtain ⟨ms, rfl⟩ := struct_obj hj
        have h : FitC v (.place .tools) J.toolsChoiceJSON (c, s)
            ((c ≠ .nilSlice ∧ ∀ y ∈ c.elems, Component.Fits v y) ∧
             (s ≠ .nilSlice ∧ ∀ y ∈ s.elems, Service.Fits v y) ∧ True) :=
          fit_struct (fitF_field (some (.list (.place .component))) rfl (ff_list (fun a _ => fit_component v a)) <|
            fitF_field (some (.list (.place .service))) rfl (ff_list (fun a _ => fit_service v a)) fitF_nil)
        have hcs : ¬ (c = .nil ∧ s = .nil) := fun h => hcs.elim (fun k => k h.1) fun k => k h.2
        rw [conforms_alt, conforms_since, h _ hj]
        simp [not_conforms_list, hcs, PSlice.elems]
      · cases hj


theorem fit_distributionConstraints (v : Int) (x : DistributionConstraints) : FitC v (.place .metadataDistributionConstraints) J.distributionConstraints x True :=
  fit_struct (
    fitF_plain (some .str) rfl (ff_of (fit_string v _)) <|
    fitF_nil)

theorem fit_metadata (v : Int) (x : Metadata) : FitC v (.place .metadata) J.metadata x (Metadata.Fits v x) := by
  refine FitC.congr (fit_struct (
    fitF_plain (some .str) rfl (ff_of (fit_string v _)) <|
    fitF_field (some (.since SpecVersion1_5 (.list (.place .metadataLifecycles)))) rfl (ff_list_since_true (fun a _ => fit_lifecycle v a)) <|
    fitF_field (some (.alt (.list (.place .tool)) (.since SpecVersion1_5 (.place .tools)))) rfl (ff_opt (fun a _ => fit_toolsChoice v a)) <|
    fitF_field (some (.list (.place .organizationalContact))) rfl (ff_list (fun a _ => fit_organizationalContact v a)) <|
    fitF_field (some (.place .component)) rfl (ff_opt (fun a _ => fit_component v a)) <|
    fitF_field (some (.place .organizationalEntity)) rfl (ff_opt (fun a _ => fit_organizationalEntity v a)) <|
    fitF_field (some (.since SpecVersion1_6 (.place .organizationalEntity))) rfl (ff_opt_since (fun a _ => fit_organizationalEntity v a)) <|
    fitF_field (some (.place .organizationalEntity)) rfl (ff_opt (fun a _ => fit_organizationalEntity v a)) <|
    fitF_field (some (.since SpecVersion1_3 (.list (.place .licenseChoice)))) rfl (ff_list_since (fun a _ => fit_licenseChoice v a)) <|
    fitF_field (some (.since SpecVersion1_3 (.list (.place .property)))) rfl (ff_list_since_true (fun a _ => fit_property v a)) <|
    fitF_field (some (.since SpecVersion1_7 (.place .metadataDistributionConstraints))) rfl (ff_opt_since_true (fun a _ => fit_distributionConstraints v a)) <|
    fitF_nil)) ?_
  simp only [Metadata.Fits, Metadata.toP, and_true, and_assoc]

theorem fit_credits (v : Int) (x : Credits) : FitC v (.place .vulnerabilityCredits) J.credits x (Credits.Fits v x) := by
  refine FitC.congr (fit_struct (
    fitF_field (some (.list (.place .organizationalEntity))) rfl (ff_list (fun a _ => fit_organizationalEntity v a)) <|
    fitF_field (some (.list (.place .organizationalContact))) rfl (ff_list (fun a _ => fit_organizationalContact v a)) <|
    fitF_nil)) ?_
  simp only [Credits.Fits, Credits.toP, and_true, and_assoc]

theorem fit_proofOfConcept (v : Int) (x : ProofOfConcept) : FitC v (.place .vulnerabilityProofOfConcept) J.proofOfConcept x (ProofOfConcept.Fits v x) := by
  refine FitC.congr (fit_struct (
    fitF_plain (some .str) rfl (ff_of (fit_string v _)) <|
    fitF_plain (some .str) rfl (ff_of (fit_string v _)) <|
    fitF_field (some (.list (.place .attachment))) rfl (ff_list_true (fun a _ => fit_attachedText v a)) <|
    fitF_nil)) ?_
  simp only [ProofOfConcept.Fits, ProofOfConcept.toP, and_true, and_assoc]

theorem fit_vulnerabilityAnalysis (v : Int) (x : VulnerabilityAnalysis) : FitC v (.place .vulnerabilityAnalysis) J.vulnerabilityAnalysis x (VulnerabilityAnalysis.Fits v x) := by
  refine FitC.congr (fit_struct (
    fitF_plain (some .str) rfl (ff_of (fit_string v _)) <|
    fitF_plain (some .str) rfl (ff_of (fit_string v _)) <|
    fitF_field (some (.list .str)) rfl (ff_list_true (fun a _ => fit_string v a)) <|
    fitF_plain (some .str) rfl (ff_of (fit_string v _)) <|
    fitF_field (some (.since SpecVersion1_5 .str)) rfl (ff_since (fit_string v _) emp_string) <|
    fitF_field (some (.since SpecVersion1_5 .str)) rfl (ff_since (fit_string v _) emp_string) <|
    fitF_nil)) ?_
  simp only [VulnerabilityAnalysis.Fits, VulnerabilityAnalysis.toP, and_true, and_assoc]

theorem fit_vulnerabilityRating (v : Int) (x : VulnerabilityRating) : FitC v (.place .rating) J.vulnerabilityRating x True :=
  fit_struct (
    fitF_plain (some (.place .vulnerabilitySource)) rfl (ff_opt_true (fun a _ => fit_source v a)) <|
    fitF_plain (some .num) rfl (ff_opt_true (fun a _ => fit_f64 v a)) <|
    fitF_plain (some .str) rfl (ff_of (fit_string v _)) <|
    fitF_plain (some .str) rfl (ff_of (fit_string v _)) <|
    fitF_plain (some .str) rfl (ff_of (fit_string v _)) <|
    fitF_plain (some .str) rfl (ff_of (fit_string v _)) <|
    fitF_nil)

theorem fit_vulnerabilityReference (v : Int) (x : VulnerabilityReference) : FitC v (.place .vulnerabilityReferences) J.vulnerabilityReference x True :=
  fit_struct (
    fitF_plain (some .str) rfl (ff_of (fit_string v _)) <|
    fitF_plain (some (.place .vulnerabilitySource)) rfl (ff_opt_true (fun a _ => fit_source v a)) <|
    fitF_nil)

theorem fit_vulnerability (v : Int) (x : Vulnerability) : FitC v (.place .vulnerability) J.vulnerability x (Vulnerability.Fits v x) := by
  refine FitC.congr (fit_struct (
    fitF_plain (some .str) rfl (ff_of (fit_string v _)) <|
    fitF_plain (some .str) rfl (ff_of (fit_string v _)) <|
    fitF_plain (some (.place .vulnerabilitySource)) rfl (ff_opt_true (fun a _ => fit_source v a)) <|
    fitF_field (some (.list (.place .vulnerabilityReferences))) rfl (ff_list_true (fun a _ => fit_vulnerabilityReference v a)) <|
    fitF_field (some (.list (.place .rating))) rfl (ff_list_true (fun a _ => fit_vulnerabilityRating v a)) <|
    fitF_field (some (.list .int)) rfl (ff_list_true (fun a _ => fit_int v a)) <|
    fitF_plain (some .str) rfl (ff_of (fit_string v _)) <|
    fitF_plain (some .str) rfl (ff_of (fit_string v _)) <|
    fitF_plain (some .str) rfl (ff_of (fit_string v _)) <|
    fitF_field (some (.since SpecVersion1_5 .str)) rfl (ff_since (fit_string v _) emp_string) <|
    fitF_field (some (.since SpecVersion1_5 (.place .vulnerabilityProofOfConcept))) rfl (ff_opt_since (fun a _ => fit_proofOfConcept v a)) <|
    fitF_field (some (.list (.place .advisory))) rfl (ff_list_true (fun a _ => fit_advisory v a)) <|
    fitF_plain (some .str) rfl (ff_of (fit_string v _)) <|
    fitF_plain (some .str) rfl (ff_of (fit_string v _)) <|
    fitF_plain (some .str) rfl (ff_of (fit_string v _)) <|
    fitF_field (some (.since SpecVersion1_5 .str)) rfl (ff_since (fit_string v _) emp_string) <|
    fitF_field (some (.place .vulnerabilityCredits)) rfl (ff_opt (fun a _ => fit_credits v a)) <|
    fitF_field (some (.alt (.list (.place .tool)) (.since SpecVersion1_5 (.place .tools)))) rfl (ff_opt (fun a _ => fit_toolsChoice v a)) <|
    fitF_field (some (.place .vulnerabilityAnalysis)) rfl (ff_opt (fun a _ => fit_vulnerabilityAnalysis v a)) <|
    fitF_field (some (.list (.place .vulnerabilityAffects))) rfl (ff_list (fun a _ => fit_affects v a)) <|
    fitF_field (some (.list (.place .property))) rfl (ff_list_true (fun a _ => fit_property v a)) <|
    fitF_nil)) ?_
  simp only [Vulnerability.Fits, Vulnerability.toP, and_true, and_assoc]

theorem fit_citation (v : Int) (x : Citation) : FitC v (.place .citation) J.citation x (Citation.Fits v x) := by
  refine FitC.congr (fit_struct (
    fitF_plain (some .str) rfl (ff_of (fit_string v _)) <|
    fitF_field (some (.list .str)) rfl (ff_list_true (fun a _ => fit_string v a)) <|
    fitF_field (some (.list .str)) rfl (ff_list_true (fun a _ => fit_string v a)) <|
    fitF_plain (some .str) rfl (ff_of (fit_string v _)) <|
    fitF_plain (some .str) rfl (ff_opt_true (fun a _ => fit_bomReference v a)) <|
    fitF_plain (some .str) rfl (ff_of (fit_string v _)) <|
    fitF_plain (some .str) rfl (ff_of (fit_string v _)) <|
    fitF_field (some (.place .signature)) rfl (ff_opt (fun a _ => fit_jsfSignature v a)) <|
    fitF_nil)) ?_
  simp only [Citation.Fits, Citation.toP, and_true, and_assoc]

theorem fit_bom (v : Int) (x : BOM) : FitC v (.place .bom) J.bom x (BOM.Fits v x) := by
  refine FitC.congr (fit_struct (
    fitF_skip <|
    fitF_skip <|
    fitF_plain (some .str) rfl (ff_of (fit_string v _)) <|
    fitF_plain (some .str) rfl (ff_of (fit_string v _)) <|
    fitF_plain (some .str) rfl (ff_of (fit_specVersion v _)) <|
    fitF_plain (some .str) rfl (ff_of (fit_string v _)) <|
    fitF_plain (some .int) rfl (ff_of (fit_int v _)) <|
    fitF_field (some (.place .metadata)) rfl (ff_opt (fun a _ => fit_metadata v a)) <|
    fitF_field (some (.list (.place .component))) rfl (ff_list (fun a _ => fit_component v a)) <|
    fitF_field (some (.list (.place .service))) rfl (ff_list (fun a _ => fit_service v a)) <|
    fitF_field (some (.list (.place .externalReference))) rfl (ff_list (fun a _ => fit_externalReference v a)) <|
    fitF_field (some (.list (.place .dependency))) rfl (ff_list (fun a _ => fit_dependency v a)) <|
    fitF_field (some (.since SpecVersion1_3 (.list (.place .compositions)))) rfl (ff_list_since (fun a _ => fit_composition v a)) <|
    fitF_field (some (.since SpecVersion1_5 (.list (.place .property)))) rfl (ff_list_since_true (fun a _ => fit_property v a)) <|
    fitF_field (some (.since SpecVersion1_4 (.list (.place .vulnerability)))) rfl (ff_list_since (fun a _ => fit_vulnerability v a)) <|
    fitF_field (some (.since SpecVersion1_5 (.list (.place .annotations)))) rfl (ff_list_since (fun a _ => fit_annotation v a)) <|
    fitF_field (some (.since SpecVersion1_5 (.list (.place .formula)))) rfl (ff_list_since (fun a _ => fit_formula v a)) <|
    fitF_field (some (.since SpecVersion1_6 (.place .bomDeclarations))) rfl (ff_opt_since (fun a _ => fit_declarations v a)) <|
    fitF_field (some (.since SpecVersion1_6 (.place .bomDefinitions))) rfl (ff_opt_since (fun a _ => fit_definitions v a)) <|
    fitF_field (some (.since SpecVersion1_7 (.list (.place .citation)))) rfl (ff_list_since (fun a _ => fit_citation v a)) <|
    fitF_field (some (.since SpecVersion1_4 (.place .signature))) rfl (ff_opt_since (fun a _ => fit_jsfSignature v a)) <|
    fitF_nil)) ?_
  simp only [BOM.Fits, BOM.toP, and_true, and_assoc]

end Verif
