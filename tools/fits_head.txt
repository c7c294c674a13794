import Verif.Spec.JsonFits
import Verif.Spec.JsonSchema
import Verif.Json.StructLaws

/-!
# Which values are written as what the schema declares

GENERATED by `tools/gen_fits.py`; do not edit by hand.  `FitC v s c x Q`: when the codec `c` writes `x`, what
it writes conforms to `s` at version `v` exactly if `Q`.  For every type, at the place the schema has for it,
`Q` is `T.Fits v`.
-/

namespace Verif

set_option linter.unusedSectionVars false
set_option linter.unusedSimpArgs false

theorem conforms_str {v : Int} {j : Json} : Conforms v .str j ↔ ∃ t, j = .str t :=
  ⟨fun h => by cases h; exact ⟨_, rfl⟩, fun ⟨t, h⟩ => h ▸ .str t⟩
theorem conforms_num {v : Int} {j : Json} : Conforms v .num j ↔ ∃ t, j = .num t :=
  ⟨fun h => by cases h; exact ⟨_, rfl⟩, fun ⟨t, h⟩ => h ▸ .num t⟩
theorem conforms_int {v : Int} {j : Json} : Conforms v .int j ↔ ∃ i, j = .num (.ofInt i) :=
  ⟨fun h => by cases h; exact ⟨_, rfl⟩, fun ⟨t, h⟩ => h ▸ .int t⟩
theorem conforms_bool {v : Int} {j : Json} : Conforms v .bool j ↔ ∃ t, j = .bool t :=
  ⟨fun h => by cases h; exact ⟨_, rfl⟩, fun ⟨t, h⟩ => h ▸ .bool t⟩
theorem conforms_list {v : Int} {s : Sch} {js : List Json} :
    Conforms v (.list s) (.arr js) ↔ ∀ j ∈ js, Conforms v s j :=
  ⟨fun h => by cases h; assumption, .list⟩
theorem conforms_alt {v : Int} {s t : Sch} {j : Json} :
    Conforms v (.alt s t) j ↔ Conforms v s j ∨ Conforms v t j :=
  ⟨fun h => by cases h <;> simp_all, fun h => h.elim .left .right⟩
theorem conforms_since {v n : Int} {s : Sch} {j : Json} :
    Conforms v (.since n s) j ↔ n ≤ v ∧ Conforms v s j :=
  ⟨fun h => by cases h; constructor <;> assumption, fun h => .since h.1 h.2⟩
theorem not_conforms_null {v : Int} {s : Sch} : ¬ Conforms v s .null := by
  generalize hj : Json.null = j
  intro h
  induction h <;> simp_all
theorem not_conforms_list {v : Int} {s : Sch} {ms : List (String × Json)} : ¬ Conforms v (.list s) (.obj ms) :=
  fun h => by cases h
theorem not_conforms_list_str {v : Int} {s : Sch} {t : String} : ¬ Conforms v (.list s) (.str t) :=
  fun h => by cases h
theorem not_conforms_str {v : Int} {ms : List (String × Json)} : ¬ Conforms v .str (.obj ms) :=
  fun h => by cases h
theorem not_conforms_place {v : Int} {p : Place} {js : List Json} : ¬ Conforms v (.place p) (.arr js) :=
  fun h => by cases h
theorem not_conforms_place_str {v : Int} {p : Place} {t : String} : ¬ Conforms v (.place p) (.str t) :=
  fun h => by cases h

/-- The member is declared, and so is its value. -/
def MemberOK (v : Int) (p : Place) (m : String × Json) : Prop :=
  ∃ s, p.members.lookup m.1 = some s ∧ Conforms v s m.2

theorem conforms_place {v : Int} {p : Place} {ms : List (String × Json)} :
    Conforms v (.place p) (.obj ms) ↔ ∀ m ∈ ms, MemberOK v p m := by
  constructor
  · intro h
    cases h with
    | place σ h1 h2 => exact fun m hm => ⟨_, h1 m hm, h2 m hm⟩
  · intro h
    refine .place (fun k => (p.members.lookup k).getD .str) ?_ ?_
    · intro m hm
      obtain ⟨s, hs, _⟩ := h m hm
      rw [hs, Option.getD_some]
    · intro m hm
      obtain ⟨s, hs, hc⟩ := h m hm
      rw [hs, Option.getD_some]
      exact hc

/-- When `c` writes `a`, what it writes conforms exactly if `Q`. -/
def FitC {α : Type} (v : Int) (s : Sch) (c : JCodec α) (a : α) (Q : Prop) : Prop :=
  ∀ j, c.enc a = some j → (Conforms v s j ↔ Q)

/-- When the fields are written, every member is declared exactly if `Q`. -/
def FitF {β : Type} (v : Int) (p : Place) (F : JFields β) (b : β) (Q : Prop) : Prop :=
  ∀ ms, F.enc b = some ms → ((∀ m ∈ ms, MemberOK v p m) ↔ Q)

/-- One field: it is dropped and `Q` holds, or what is written conforms exactly if `Q`. -/
def FieldFit {α : Type} (v : Int) (s : Option Sch) (oe : Bool) (c : JCodec α) (a : α) (Q : Prop) : Prop :=
  if oe && c.empty a then Q else ∀ j, c.enc a = some j → ((∃ t, s = some t ∧ Conforms v t j) ↔ Q)

theorem FitC.congr {α : Type} {v : Int} {s : Sch} {c : JCodec α} {a : α} {P Q : Prop} (h : FitC v s c a P)
    (e : P ↔ Q) : FitC v s c a Q := fun j hj => (h j hj).trans e

theorem fitF_nil {v : Int} {p : Place} {b : Unit} : FitF v p .nil b True := by
  intro ms h
  simp only [JFields.enc, Option.some.injEq] at h
  subst h
  simp

theorem fitF_skip {v : Int} {p : Place} {α β : Type} {z : α} {F : JFields β} {b : α × β} {Q : Prop}
    (h : FitF v p F b.2 Q) : FitF v p (.skip z F) b Q := h

theorem fitF_field {v : Int} {p : Place} {α β : Type} {n : String} {oe : Bool} {c : JCodec α} {F : JFields β}
    {b : α × β} {P Q : Prop} (s : Option Sch) (hs : p.members.lookup n = s) (h1 : FieldFit v s oe c b.1 P)
    (h2 : FitF v p F b.2 Q) : FitF v p (.field n oe c F) b (P ∧ Q) := by
  intro ms h
  simp only [JFields.enc] at h
  simp only [FieldFit] at h1
  by_cases he : (oe && c.empty b.1) = true
  · rw [if_pos he] at h h1
    rw [h2 ms h]
    exact ⟨fun hq => ⟨h1, hq⟩, And.right⟩
  · rw [if_neg he] at h h1
    cases hc : c.enc b.1 with
    | none => simp [hc] at h
    | some j =>
      simp only [hc, Option.map_eq_some_iff] at h
      obtain ⟨ms', hm, rfl⟩ := h
      rw [← h1 j hc, ← h2 ms' hm]
      simp only [List.mem_cons, forall_eq_or_imp, MemberOK, hs]

theorem fitF_plain {v : Int} {p : Place} {α β : Type} {n : String} {oe : Bool} {c : JCodec α} {F : JFields β}
    {b : α × β} {Q : Prop} (s : Option Sch) (hs : p.members.lookup n = s) (h1 : FieldFit v s oe c b.1 True)
    (h2 : FitF v p F b.2 Q) : FitF v p (.field n oe c F) b Q := by
  have := fitF_field s hs h1 h2
  rwa [true_and] at this

theorem fit_struct {v : Int} {p : Place} {σ β : Type} {F : JFields β} {toP : σ → β} {ofP : β → σ} {x : σ}
    {Q : Prop} (h : FitF v p F (toP x) Q) : FitC v (.place p) (JCodec.struct F toP ofP) x Q := by
  intro j hj
  simp only [JCodec.struct, Option.map_eq_some_iff] at hj
  obtain ⟨ms, hm, rfl⟩ := hj
  rw [conforms_place]
  exact h ms hm

theorem struct_obj {σ β : Type} {F : JFields β} {toP : σ → β} {ofP : β → σ} {x : σ} {j : Json}
    (h : (JCodec.struct F toP ofP).enc x = some j) : ∃ ms, j = .obj ms := by
  simp only [JCodec.struct, Option.map_eq_some_iff] at h
  obtain ⟨ms, _, rfl⟩ := h
  exact ⟨ms, rfl⟩

theorem pslice_isNil_iff {α : Type} (p : PSlice α) : p.isNil = true ↔ p = .nil := by
  cases p <;> simp [PSlice.isNil]

/-! ### Fields -/

theorem ff_of {v : Int} {α : Type} {oe : Bool} {s : Sch} {c : JCodec α} {a : α} (h : FitC v s c a True) :
    FieldFit v (some s) oe c a True := by
  simp only [FieldFit]
  split
  · trivial
  · intro j hj
    simpa using h j hj

theorem ff_since {v n : Int} {α : Type} {s : Sch} {c : JCodec α} {a : α} {E : Prop} (h : FitC v s c a True)
    (he : c.empty a = true ↔ E) : FieldFit v (some (.since n s)) true c a (E ∨ n ≤ v) := by
  simp only [FieldFit, Bool.true_and]
  split
  · rename_i h1
    exact Or.inl (he.1 h1)
  · rename_i h1
    intro j hj
    have : ¬ E := fun e => h1 (he.2 e)
    simp [conforms_since, this, h j hj]

theorem ff_undeclared {v : Int} {α : Type} {c : JCodec α} {a : α} {E : Prop}
    (he : c.empty a = true ↔ E) : FieldFit v none true c a E := by
  simp only [FieldFit, Bool.true_and]
  split
  · rename_i h1
    exact he.1 h1
  · rename_i h1
    intro j hj
    have : ¬ E := fun e => h1 (he.2 e)
    simp [this]

theorem ff_opt {v : Int} {α : Type} {s : Sch} {c : JCodec α} {o : Option α} {P : α → Prop}
    (h : ∀ a ∈ o, FitC v s c a (P a)) : FieldFit v (some s) true (JCodec.option c) o (∀ a ∈ o, P a) := by
  cases o with
  | none => simp [FieldFit, JCodec.option]
  | some a =>
    simp only [FieldFit, JCodec.option, Option.isNone_some, Bool.and_false, Bool.false_eq_true, if_false]
    intro j hj
    simpa using h a rfl j hj

theorem ff_opt_true {v : Int} {α : Type} {s : Sch} {c : JCodec α} {o : Option α}
    (h : ∀ a ∈ o, FitC v s c a True) : FieldFit v (some s) true (JCodec.option c) o True := by
  have := ff_opt (P := fun _ => True) h
  simpa using this

theorem ff_opt_false {v : Int} {α : Type} {s : Sch} {c : JCodec α} {o : Option α}
    (h : ∀ a ∈ o, FitC v s c a False) : FieldFit v (some s) true (JCodec.option c) o (o = none) := by
  have := ff_opt (P := fun _ => False) h
  have e : (∀ a ∈ o, False) ↔ o = none := by cases o <;> simp
  rwa [e] at this

theorem ff_req_opt {v : Int} {α : Type} {s : Sch} {c : JCodec α} {o : Option α} {P : α → Prop}
    (h : ∀ a ∈ o, FitC v s c a (P a)) :
    FieldFit v (some s) false (JCodec.option c) o (o ≠ none ∧ ∀ a ∈ o, P a) := by
  simp only [FieldFit, Bool.false_and, Bool.false_eq_true, if_false]
  intro j hj
  cases o with
  | none =>
    simp only [JCodec.option, Option.some.injEq] at hj
    subst hj
    simp [not_conforms_null]
  | some a => simpa using h a rfl j hj

theorem ff_req_opt_true {v : Int} {α : Type} {s : Sch} {c : JCodec α} {o : Option α}
    (h : ∀ a ∈ o, FitC v s c a True) : FieldFit v (some s) false (JCodec.option c) o (o ≠ none) := by
  have := ff_req_opt (P := fun _ => True) h
  simpa using this

theorem fitC_since {v n : Int} {α : Type} {s : Sch} {c : JCodec α} {a : α} {P : Prop} (h : FitC v s c a P) :
    FitC v (.since n s) c a (n ≤ v ∧ P) := by
  intro j hj
  rw [conforms_since, h j hj]

theorem ff_opt_since {v n : Int} {α : Type} {s : Sch} {c : JCodec α} {o : Option α} {P : α → Prop}
    (h : ∀ a ∈ o, FitC v s c a (P a)) :
    FieldFit v (some (.since n s)) true (JCodec.option c) o (o = none ∨ n ≤ v ∧ ∀ a ∈ o, P a) := by
  have := ff_opt (P := fun a => n ≤ v ∧ P a) fun a ha => fitC_since (n := n) (h a ha)
  have e : (∀ a ∈ o, n ≤ v ∧ P a) ↔ (o = none ∨ n ≤ v ∧ ∀ a ∈ o, P a) := by cases o <;> simp
  rwa [e] at this

theorem ff_opt_since_true {v n : Int} {α : Type} {s : Sch} {c : JCodec α} {o : Option α}
    (h : ∀ a ∈ o, FitC v s c a True) :
    FieldFit v (some (.since n s)) true (JCodec.option c) o (o = none ∨ n ≤ v) := by
  have := ff_opt_since (n := n) (P := fun _ => True) h
  simpa using this

theorem ff_opt_undeclared {v : Int} {α : Type} {c : JCodec α} {o : Option α} :
    FieldFit v none true (JCodec.option c) o (o = none) :=
  ff_undeclared (by cases o <;> simp [JCodec.option])

theorem fitC_encList {v : Int} {α : Type} {s : Sch} {c : JCodec α} {P : α → Prop} : ∀ {xs : List α} {js : List Json},
    (∀ a ∈ xs, FitC v s c a (P a)) → JCodec.encList c xs = some js →
    ((∀ j ∈ js, Conforms v s j) ↔ ∀ a ∈ xs, P a)
  | [], js, _, h => by
    simp only [JCodec.encList, Option.some.injEq] at h
    subst h
    simp
  | x :: xs, js, hx, h => by
    simp only [JCodec.encList] at h
    cases hc : c.enc x with
    | none => simp [hc] at h
    | some j =>
      simp only [hc, Option.map_eq_some_iff] at h
      obtain ⟨js', h', rfl⟩ := h
      have ih := fitC_encList (fun a ha => hx a (List.mem_cons_of_mem _ ha)) h'
      simp only [List.mem_cons, forall_eq_or_imp, ih, hx x (by simp) j hc]

theorem fit_list {v : Int} {α : Type} {s : Sch} {c : JCodec α} {p : PSlice α} {P : α → Prop}
    (h : ∀ a ∈ p.elems, FitC v s c a (P a)) :
    FitC v (.list s) (JCodec.pslice c) p (p ≠ .nil ∧ p ≠ .nilSlice ∧ ∀ a ∈ p.elems, P a) := by
  intro j hj
  cases p with
  | nil =>
    simp only [JCodec.pslice, Option.some.injEq] at hj
    subst hj
    simp [not_conforms_null]
  | nilSlice =>
    simp only [JCodec.pslice, Option.some.injEq] at hj
    subst hj
    simp [not_conforms_null]
  | list xs =>
    simp only [JCodec.pslice, Option.map_eq_some_iff] at hj
    obtain ⟨js, h', rfl⟩ := hj
    simp only [PSlice.elems] at h ⊢
    simp [conforms_list, fitC_encList h h']

theorem ff_list {v : Int} {α : Type} {s : Sch} {c : JCodec α} {p : PSlice α} {P : α → Prop}
    (h : ∀ a ∈ p.elems, FitC v s c a (P a)) :
    FieldFit v (some (.list s)) true (JCodec.pslice c) p (p ≠ .nilSlice ∧ ∀ a ∈ p.elems, P a) := by
  by_cases hp : p = .nil
  · subst hp; simp [FieldFit, JCodec.pslice, PSlice.isNil, PSlice.elems]
  · have hn : (JCodec.pslice c).empty p = false := by cases p <;> simp_all [JCodec.pslice, PSlice.isNil]
    simp only [FieldFit, hn, Bool.and_false, Bool.false_eq_true, if_false]
    intro j hj
    simpa [hp] using fit_list h j hj

theorem ff_req_list {v : Int} {α : Type} {s : Sch} {c : JCodec α} {p : PSlice α} {P : α → Prop}
    (h : ∀ a ∈ p.elems, FitC v s c a (P a)) :
    FieldFit v (some (.list s)) false (JCodec.pslice c) p (p ≠ .nil ∧ p ≠ .nilSlice ∧ ∀ a ∈ p.elems, P a) := by
  simp only [FieldFit, Bool.false_and, Bool.false_eq_true, if_false]
  intro j hj
  simpa using fit_list h j hj

theorem ff_list_true {v : Int} {α : Type} {s : Sch} {c : JCodec α} {p : PSlice α}
    (h : ∀ a ∈ p.elems, FitC v s c a True) :
    FieldFit v (some (.list s)) true (JCodec.pslice c) p (p ≠ .nilSlice) := by
  have := ff_list (P := fun _ => True) h
  simpa using this

theorem ff_list_since {v n : Int} {α : Type} {s : Sch} {c : JCodec α} {p : PSlice α} {P : α → Prop}
    (h : ∀ a ∈ p.elems, FitC v s c a (P a)) :
    FieldFit v (some (.since n (.list s))) true (JCodec.pslice c) p
      (p = .nil ∨ n ≤ v ∧ p ≠ .nilSlice ∧ ∀ a ∈ p.elems, P a) := by
  by_cases hp : p = .nil
  · subst hp; simp [FieldFit, JCodec.pslice, PSlice.isNil]
  · have hn : (JCodec.pslice c).empty p = false := by cases p <;> simp_all [JCodec.pslice, PSlice.isNil]
    simp only [FieldFit, hn, Bool.and_false, Bool.false_eq_true, if_false]
    intro j hj
    simpa [hp] using fitC_since (n := n) (fit_list h) j hj

theorem ff_list_since_true {v n : Int} {α : Type} {s : Sch} {c : JCodec α} {p : PSlice α}
    (h : ∀ a ∈ p.elems, FitC v s c a True) :
    FieldFit v (some (.since n (.list s))) true (JCodec.pslice c) p (p = .nil ∨ n ≤ v ∧ p ≠ .nilSlice) := by
  have := ff_list_since (n := n) (P := fun _ => True) h
  simpa using this

theorem ff_list_undeclared {v : Int} {α : Type} {c : JCodec α} {p : PSlice α} :
    FieldFit v none true (JCodec.pslice c) p (p = .nil) :=
  ff_undeclared (by cases p <;> simp [JCodec.pslice, PSlice.isNil])

/-! ### Scalars -/

theorem fit_string (v : Int) (a : String) : FitC v .str JCodec.string a True := by
  intro j h; simp only [JCodec.string, Option.some.injEq] at h; subst h; simp [conforms_str]
theorem fit_bool (v : Int) (a : Bool) : FitC v .bool JCodec.bool a True := by
  intro j h; simp only [JCodec.bool, Option.some.injEq] at h; subst h; simp [conforms_bool]
theorem fit_int (v : Int) (a : Int) : FitC v .int JCodec.int a True := by
  intro j h; simp only [JCodec.int, Option.some.injEq] at h; subst h
  exact iff_true_intro (.int a)
theorem fit_bomReference (v : Int) (a : BOMReference) : FitC v .str J.bomReference a True := by
  intro j h; simp only [J.bomReference, Option.some.injEq] at h; subst h; simp [conforms_str]
theorem fit_specVersion (v : Int) (a : Int) : FitC v .str J.specVersion a True := by
  intro j h; simp only [J.specVersion, Option.some.injEq] at h; subst h; simp [conforms_str]

theorem emp_string {a : String} : JCodec.string.empty a = true ↔ a = "" := by simp [JCodec.string]
theorem emp_bomReference {a : BOMReference} : J.bomReference.empty a = true ↔ a = ⟨""⟩ := by
  cases a; simp [J.bomReference]

variable [FloatIO]

theorem fit_f32 (v : Int) (a : F32) : FitC v .num JCodec.f32 a True := by
  intro j h; simp only [JCodec.f32, Option.map_eq_some_iff] at h; obtain ⟨l, _, rfl⟩ := h
  simp [conforms_num]
theorem fit_f64 (v : Int) (a : F64) : FitC v .num JCodec.f64 a True := by
  intro j h; simp only [JCodec.f64, Option.map_eq_some_iff] at h; obtain ⟨l, _, rfl⟩ := h
  simp [conforms_num]

theorem SameAt.fitC {v : Int} {s : Sch} {α : Type} {C D : JCodec α} {a : α} {Q : Prop} (h : SameAt C D a)
    (hD : FitC v s D a Q) : FitC v s C a Q := fun j hj => hD j (h.enc ▸ hj)

theorem fit_ike {v : Int} {σ : Type} {s : Sch} {S : JCodec σ} {get : σ → BOMReference}
    {put : σ → BOMReference → σ} {x : σ} {n : Int} (ho : ∀ j, S.enc x = some j → ¬ Conforms v .str j) (h : FitC v s S x True) :
    FitC v (.alt .str (.since n s)) (J.ikev2 S get put) x (get x ≠ ⟨""⟩ ∨ n ≤ v) := by
  intro j hj
  simp only [J.ikev2] at hj
  have e : (get x).val ≠ "" ↔ get x ≠ ⟨""⟩ := by cases get x; simp
  split at hj
  · rename_i hv
    simp only [Option.some.injEq] at hj
    subst hj
    simp [conforms_alt, conforms_str, e.1 hv]
  · rename_i hv
    rw [e] at hv
    have hv' : get x = ⟨""⟩ := Classical.byContradiction hv
    simp [conforms_alt, conforms_since, ho j hj, h j hj, hv']

theorem fit_dataClassification_str (v : Int) (a : DataClassification) : FitC v .str J.dataClassification a False := by
  intro j hj
  obtain ⟨ms, rfl⟩ := struct_obj hj
  simp [not_conforms_str]

theorem fitsComponentList_iff {v : Int} (xs : List Component) : FitsComponentList v xs ↔ ∀ c ∈ xs, c.Fits v := by
  induction xs with
  | nil => simp [FitsComponentList]
  | cons x xs ih => simp [FitsComponentList, ih]
theorem fitsComponents_iff {v : Int} (p : PSlice Component) :
    FitsComponents v p ↔ p ≠ .nilSlice ∧ ∀ c ∈ p.elems, c.Fits v := by
  cases p <;> simp [FitsComponents, PSlice.elems, fitsComponentList_iff]
theorem fitsPedigreeOpt_iff {v : Int} (o : Option (Pedigree Component)) :
    FitsPedigreeOpt v o ↔ ∀ p ∈ o, FitsPedigree v p := by
  cases o <;> simp [FitsPedigreeOpt]
theorem fitsServiceList_iff {v : Int} (xs : List Service) : FitsServiceList v xs ↔ ∀ c ∈ xs, c.Fits v := by
  induction xs with
  | nil => simp [FitsServiceList]
  | cons x xs ih => simp [FitsServiceList, ih]
theorem fitsServices_iff {v : Int} (p : PSlice Service) :
    FitsServices v p ↔ p ≠ .nilSlice ∧ ∀ c ∈ p.elems, c.Fits v := by
  cases p <;> simp [FitsServices, PSlice.elems, fitsServiceList_iff]

