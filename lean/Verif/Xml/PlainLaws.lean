import Verif.Spec.XmlPlain
import Verif.Xml.StructLaws

/-!
# What survives an XML round trip

GENERATED by `tools/gen_xplain.py`; do not edit by hand.  `X.Ok c x`: the codec `c` writes `x` and reads it back
unchanged.  For every type this is `T.XPlain`.
-/

namespace Verif

open Xml (sanitize trim textOf textKids fixChar isSpace trimChars)

set_option linter.unusedSectionVars false
set_option linter.unusedSimpArgs false
set_option linter.unusedVariables false

variable [XFloatIO]

/-- The value is written and read back unchanged. -/
def X.Ok {α : Type} (c : XCodec α) (a : α) : Prop := c.writes a = true ∧ c.norm a = a ∧ c.good a
/-- The same for a text. -/
def X.TOk {α : Type} (c : XText α) (a : α) : Prop := c.norm a = a ∧ c.good a
/-- The same for a text that may be left out if it is empty. -/
def X.AOk {α : Type} (oe : Bool) (c : XText α) (a : α) : Prop :=
  (if (oe && c.empty a) = true then c.zero else c.norm a) = a ∧ c.good a
/-- The same for an element of a list. -/
def X.EOk {α : Type} (oe : Bool) (c : XCodec α) (a : α) : Prop := (oe && c.empty a) = false ∧ X.Ok c a
/-- The same for a field. -/
def X.FOk {α : Type} (f : XField α) (a : α) : Prop := f.norm a = a ∧ f.good a
/-- The same for the fields of a struct. -/
def X.OkF {β : Type} (F : XFields β) (b : β) : Prop := F.norm b = b ∧ F.good b

/-- No value of the type is left out because of `omitempty`. -/
class XNonEmpty {α : Type} (c : XCodec α) : Prop where
  empty : ∀ a, c.empty a = false

/-- Every value of the type is written. -/
class XAlways {α : Type} (c : XCodec α) : Prop where
  writes : ∀ a, c.writes a = true

/-! ### Texts -/

theorem isChar_iff (c : Char) : Xml.isChar c = true ↔ XmlChar c := by
  have h : ∀ d : Char, c = d ↔ c.toNat = d.toNat := fun d => Char.toNat_inj.symm
  simp only [Xml.isChar, XmlChar, decide_eq_true_eq, h]
  exact Iff.rfl

theorem fixChar_eq (c : Char) : fixChar c = c ↔ XmlChar c := by
  rw [← isChar_iff]
  unfold fixChar
  split
  · simp [*]
  · rename_i h
    simp only [h]
    constructor
    · intro e; exact absurd (by rw [← e]; decide) h
    · intro e; cases e

theorem xmap_eq_self {α : Type} {f : α → α} : ∀ {xs : List α}, xs.map f = xs ↔ ∀ x ∈ xs, f x = x
  | [] => by simp
  | x :: xs => by simp [xmap_eq_self (xs := xs)]

theorem length_dropWhile_le' {p : Char → Bool} (cs : List Char) : (cs.dropWhile p).length ≤ cs.length :=
  (List.dropWhile_suffix p).length_le

theorem sanitize_eq (s : String) : sanitize s = s ↔ XString s := by
  rw [← String.toList_inj, sanitize_toList, XString]
  exact xmap_eq_self.trans (forall₂_congr fun c _ => fixChar_eq c)

theorem isSpace_iff (c : Char) : isSpace c = true ↔ WhiteSpace c := by
  simp only [isSpace, WhiteSpace, decide_eq_true_eq, List.mem_cons, List.not_mem_nil, or_false]
  omega

theorem dropWhile_eq_self {p : Char → Bool} (cs : List Char) :
    cs.dropWhile p = cs ↔ ∀ c ∈ cs.head?, p c = false := by
  cases cs with
  | nil => simp
  | cons c cs =>
    simp only [List.dropWhile_cons, List.head?_cons, Option.mem_some_iff, forall_eq']
    cases h : p c
    · simp
    · simp only [if_true, iff_false, Bool.true_eq_false]
      intro e
      have := congrArg List.length e
      have h2 := length_dropWhile_le' (p := p) cs
      simp at this
      omega

theorem trimChars_eq_self (cs : List Char) :
    trimChars cs = cs ↔ (∀ c ∈ cs.head?, isSpace c = false) ∧ (∀ c ∈ cs.getLast?, isSpace c = false) := by
  unfold trimChars
  have hlen := length_dropWhile_le' (p := isSpace) cs
  constructor
  · intro e
    have h1 : cs.dropWhile isSpace = cs := by
      have h2 := length_dropWhile_le' (p := isSpace) (cs.dropWhile isSpace).reverse
      have h3 := congrArg List.length e
      simp only [List.length_reverse] at h2 h3
      have h4 := List.dropWhile_suffix isSpace (l := cs)
      exact h4.eq_of_length (by omega)
    rw [h1] at e
    refine ⟨(dropWhile_eq_self cs).1 h1, ?_⟩
    have h5 : cs.reverse.dropWhile isSpace = cs.reverse := by
      rw [← List.reverse_eq_iff]; exact e
    have := (dropWhile_eq_self _).1 h5
    simpa using this
  · rintro ⟨h1, h2⟩
    rw [(dropWhile_eq_self cs).2 h1, (dropWhile_eq_self cs.reverse).2 (by simpa using h2), List.reverse_reverse]

theorem trim_eq (s : String) : trim s = s ↔ Trimmed s := by
  rw [← String.toList_inj, trim, String.toList_ofList, trimChars_eq_self, Trimmed]
  have h : ∀ c, isSpace c = false ↔ ¬ WhiteSpace c := fun c => by rw [← isSpace_iff]; simp
  simp only [h]

theorem trimChars_length (cs : List Char) : (trimChars cs).length ≤ cs.length := by
  unfold trimChars
  have h1 := length_dropWhile_le' (p := isSpace) cs
  have h2 := length_dropWhile_le' (p := isSpace) (cs.dropWhile isSpace).reverse
  simp only [List.length_reverse] at h2 ⊢
  omega

theorem trimChars_eq_of_length {cs : List Char} (h : (trimChars cs).length = cs.length) : trimChars cs = cs := by
  unfold trimChars at h ⊢
  have h1 := length_dropWhile_le' (p := isSpace) cs
  have h2 := length_dropWhile_le' (p := isSpace) (cs.dropWhile isSpace).reverse
  simp only [List.length_reverse] at h h2
  have h3 : cs.dropWhile isSpace = cs := (List.dropWhile_suffix isSpace (l := cs)).eq_of_length (by omega)
  rw [h3] at h ⊢
  have h4 : cs.reverse.dropWhile isSpace = cs.reverse :=
    (List.dropWhile_suffix isSpace (l := cs.reverse)).eq_of_length (by simp; omega)
  rw [h4, List.reverse_reverse]

theorem trim_sanitize_eq (s : String) : trim (sanitize s) = s ↔ XString s ∧ Trimmed s := by
  constructor
  · intro h
    have hl := congrArg (fun t => t.toList.length) h
    simp only [trim, String.toList_ofList] at hl
    have h1 : trim (sanitize s) = sanitize s := by
      rw [← String.toList_inj, trim, String.toList_ofList]
      exact trimChars_eq_of_length (hl.trans (by simp [sanitize_toList]))
    rw [h] at h1
    have h2 := (sanitize_eq s).1 h1.symm
    refine ⟨h2, (trim_eq s).1 ?_⟩
    rw [← h1] at h; exact h
  · rintro ⟨h1, h2⟩
    rw [(sanitize_eq s).2 h1, (trim_eq s).2 h2]

theorem f32_canon (x : F32) : x.canonNaN = x ↔ x.XPlain := by
  simp only [F32.canonNaN, F32.isNaN, decide_eq_true_eq, F32.XPlain]
  cases x
  split
  · rename_i h
    simp only [F32.nan, F32.mk.injEq]
    exact ⟨fun e _ => e.symm, fun e => (e h).symm⟩
  · rename_i h
    exact ⟨fun _ e => absurd e h, fun _ => rfl⟩

theorem f64_canon (x : F64) : x.canonNaN = x ↔ x.XPlain := by
  simp only [F64.canonNaN, F64.isNaN, decide_eq_true_eq, F64.XPlain]
  cases x
  split
  · rename_i h
    simp only [F64.nan, F64.mk.injEq]
    exact ⟨fun e _ => e.symm, fun e => (e h).symm⟩
  · rename_i h
    exact ⟨fun _ e => absurd e h, fun _ => rfl⟩

theorem tok_string (s : String) : X.TOk XText.string s ↔ XString s := by
  simp [X.TOk, XText.string, sanitize_eq]
theorem tok_ref (s : BOMReference) : X.TOk XText.bomReference s ↔ XString s.val := by
  cases s; simp [X.TOk, XText.bomReference, sanitize_eq]
theorem tok_int (i : Int) : X.TOk XText.int i ↔ InInt64 i := by simp [X.TOk, XText.int]
theorem tok_bool (i : Bool) : X.TOk XText.bool i ↔ True := by simp [X.TOk, XText.bool]
theorem tok_f32 (x : F32) : X.TOk XText.f32 x ↔ x.XPlain := by simp [X.TOk, XText.f32, f32_canon]
theorem tok_f64 (x : F64) : X.TOk XText.f64 x ↔ x.XPlain := by simp [X.TOk, XText.f64, f64_canon]

/-- Leaving out an empty value does not change it. -/
theorem aok_of {α : Type} {c : XText α} (h : ∀ a, c.empty a = true → a = c.zero) (hz : X.TOk c c.zero) (oe : Bool)
    (a : α) : X.AOk oe c a ↔ X.TOk c a := by
  unfold X.AOk
  by_cases e : (oe && c.empty a) = true
  · simp only [e, if_true]
    have ha := h a (by simp_all)
    rw [ha]
    simp only [X.TOk] at hz ⊢
    simp [hz]
  · simp only [e]; exact Iff.rfl

theorem aok_string (oe : Bool) (s : String) : X.AOk oe XText.string s ↔ XString s :=
  (aok_of (fun a h => by simpa [XText.string] using h) ⟨rfl, trivial⟩ oe s).trans (tok_string s)
theorem aok_ref (oe : Bool) (s : BOMReference) : X.AOk oe XText.bomReference s ↔ XString s.val :=
  (aok_of (fun a h => by cases a; simpa [XText.bomReference] using h) ⟨rfl, trivial⟩ oe s).trans (tok_ref s)
theorem aok_int (oe : Bool) (i : Int) : X.AOk oe XText.int i ↔ InInt64 i :=
  (aok_of (fun a h => by simpa [XText.int] using h) ⟨rfl, by simp [XText.int, InInt64]⟩ oe i).trans (tok_int i)
theorem aok_bool (oe : Bool) (i : Bool) : X.AOk oe XText.bool i ↔ True :=
  (aok_of (fun a h => by simpa [XText.bool] using h) ⟨rfl, trivial⟩ oe i).trans (tok_bool i)
theorem aok_f32 (x : F32) : X.AOk false XText.f32 x ↔ x.XPlain := by
  rw [← tok_f32]; simp [X.AOk, X.TOk]

/-! ### Elements -/

instance {σ β : Type} (F : XFields β) (toP : σ → β) (ofP : β → σ) : XNonEmpty (XCodec.struct F toP ofP) :=
  ⟨fun _ => rfl⟩
instance {σ β : Type} (F : XFields β) (toP : σ → β) (ofP : β → σ) : XAlways (XCodec.struct F toP ofP) :=
  ⟨fun _ => rfl⟩

theorem xok_text {α : Type} (c : XText α) (a : α) : X.Ok (XCodec.simple c) a ↔ X.TOk c a := by
  simp [X.Ok, X.TOk, XCodec.simple]

theorem xok_ref (r : BOMReference) : X.Ok X.bomReference r ↔ XString r.val := by
  cases r
  simp [X.Ok, X.bomReference, X.fresh, XCodec.struct, X.bomReferenceFields, XFields.norm, XFields.good, XText.string,
    sanitize_eq]

theorem eok_string (s : String) : X.EOk true X.string s ↔ s ≠ "" ∧ XString s := by
  simp only [X.EOk, xok_text, tok_string]
  simp [XCodec.simple, XText.string]
theorem eok_int (s : Int) : X.EOk true X.int s ↔ s ≠ 0 ∧ InInt64 s := by
  simp only [X.EOk, xok_text, tok_int]
  simp [XCodec.simple, XText.int]
theorem eok_ref (s : BOMReference) : X.EOk true X.bomReference s ↔ s.val ≠ "" ∧ XString s.val := by
  simp only [X.EOk, xok_ref]
  simp [X.bomReference]
theorem eok_of {α : Type} (oe : Bool) (c : XCodec α) [N : XNonEmpty c] (a : α) : X.EOk oe c a ↔ X.Ok c a := by
  simp [X.EOk, N.empty]

/-! ### Fields -/

theorem fok_plain_simple {α : Type} (n : String) (oe : Bool) (c : XText α) (a : α) :
    X.FOk (XField.plain n oe (XCodec.simple c)) a ↔ X.AOk oe c a := by
  simp [X.FOk, X.AOk, XField.plain, XCodec.simple]

theorem fok_plain_ref (n : String) (oe : Bool) (r : BOMReference) :
    X.FOk (XField.plain n oe X.bomReference) r ↔ XString r.val := by
  have h := xok_ref r
  simp only [X.Ok] at h
  cases r with | mk s =>
  by_cases hs : s = ""
  · subst hs
    have : XString "" := by simp [XString]
    simp only [this, iff_true]
    exact ⟨by simp [XField.plain, X.bomReference, X.fresh, XCodec.struct, X.bomReferenceFields, XFields.zero,
      XFields.norm, XText.string], by simp [XField.plain, X.bomReference, X.fresh, XCodec.struct, X.bomReferenceFields,
      XFields.good, XText.string]⟩
  · rw [← h]
    simp [X.FOk, XField.plain, X.bomReference, hs, X.fresh, XCodec.struct]

theorem fok_plain_struct {α : Type} (n : String) (oe : Bool) (c : XCodec α) [N : XNonEmpty c] [A : XAlways c] (a : α) :
    X.FOk (XField.plain n oe c) a ↔ X.Ok c a := by
  simp [X.FOk, X.Ok, XField.plain, N.empty, A.writes]

theorem fok_ptr {α : Type} (n : String) (c : XCodec α) (o : Option α) :
    X.FOk (XField.ptr n c) o ↔ ∀ a ∈ o, X.Ok c a := by
  cases o with
  | none => simp [X.FOk, XField.ptr]
  | some a =>
    simp only [X.FOk, X.Ok, XField.ptr, Option.mem_some_iff, forall_eq']
    cases c.writes a <;> simp

theorem normList_eq {α : Type} (oe : Bool) (c : XCodec α) (as : List α) :
    XField.normList oe c as = as ∧ (∀ a ∈ as, c.good a) ↔ ∀ a ∈ as, X.EOk oe c a := by
  have hlen : ∀ as : List α, (XField.normList oe c as).length ≤ as.length := fun as => by
    simp only [XField.normList, List.length_map]; exact List.length_filter_le _ _
  induction as with
  | nil => simp [XField.normList]
  | cons a as ih =>
    have hl := hlen as
    simp only [List.forall_mem_cons, ← ih]
    simp only [XField.normList, List.filter_cons] at hl ⊢
    by_cases h : (oe && c.empty a) = false ∧ c.writes a = true
    · simp only [h.1, h.2, Bool.not_true, Bool.or_false, Bool.not_false, if_true, List.map_cons, List.cons.injEq,
        X.EOk, X.Ok]
      simp only [true_and]
      exact ⟨fun ⟨⟨h1, h2⟩, h3, h4⟩ => ⟨⟨h1, h3⟩, h2, h4⟩, fun ⟨⟨h1, h3⟩, h2, h4⟩ => ⟨⟨h1, h2⟩, h3, h4⟩⟩
    · constructor
      · intro ⟨h1, _⟩
        exfalso
        have h2 : (!(oe && c.empty a || !c.writes a)) = false := by
          cases h3 : (oe && c.empty a) <;> cases h4 : c.writes a <;> simp_all
        rw [h2] at h1
        have := congrArg List.length h1
        simp only [Bool.false_eq_true, if_false, List.length_cons] at this
        omega
      · intro ⟨h1, _⟩
        exact absurd ⟨h1.1, h1.2.1⟩ h

theorem ofList_eq {α : Type} {as : List α} {p : PSlice α} :
    XField.ofList as = p ↔ (as = [] ∧ p = .nil) ∨ (as ≠ [] ∧ p = .list as) := by
  cases as with
  | nil => simp [XField.ofList, eq_comm]
  | cons a as => simp [XField.ofList, eq_comm]

theorem ofList_normList {α : Type} (oe : Bool) (c : XCodec α) (p : PSlice α) :
    XField.ofList (XField.normList oe c p.elems) = p ∧ (∀ a ∈ p.elems, c.good a) ↔ p.XEach fun a => X.EOk oe c a := by
  cases p with
  | nil => simp [PSlice.elems, PSlice.XEach, XField.normList, XField.ofList]
  | nilSlice => simp [PSlice.elems, PSlice.XEach, XField.normList, XField.ofList]
  | list as =>
    simp only [PSlice.elems, PSlice.XEach, ← normList_eq, ofList_eq, PSlice.list.injEq, reduceCtorEq, and_false, false_or]
    constructor
    · rintro ⟨⟨h1, h2⟩, h3⟩; exact ⟨h2 ▸ h1, h2.symm, h3⟩
    · rintro ⟨h1, h2, h3⟩; exact ⟨⟨by rw [h2]; exact h1, h2.symm⟩, h3⟩

theorem fok_list {α : Type} (n : String) (oe : Bool) (c : XCodec α) (p : PSlice α) :
    X.FOk (XField.list n oe c) p ↔ p.XEach fun a => X.EOk oe c a := ofList_normList oe c p

theorem fok_nlist_of {α : Type} (q n : String) (oe : Bool) (c : XCodec α) (h : c.rename n = n) (p : PSlice α) :
    X.FOk (XField.nlist q n oe c) p ↔ p.XEach fun a => X.EOk oe c a := by
  rw [← ofList_normList]
  simp only [X.FOk, XField.nlist, h, if_true]

theorem fok_nlist {α : Type} (q n : String) (oe : Bool) (c : XCodec α) [N : XNamed c] (p : PSlice α) :
    X.FOk (XField.nlist q n oe c) p ↔ p.XEach fun a => X.EOk oe c a := fok_nlist_of q n oe c (N.rename n) p

theorem fok_dataflow (q : String) (oe : Bool) (p : PSlice DataClassification) :
    X.FOk (XField.nlist q "dataflow" oe X.dataClassification) p ↔ p.XEach fun a => X.EOk oe X.dataClassification a :=
  fok_nlist_of q "dataflow" oe X.dataClassification rfl p

theorem fok_evidenceData (q : String) (o : Option DataClassification) :
    X.FOk (XField.nptr q "classification" X.dataClassification) o ↔ o = none := by
  cases o <;> simp [X.FOk, XField.nptr, X.dataClassification]

theorem fok_slice {α : Type} (n : String) (c : XCodec (List α)) (p : PSlice α) (P : α → Prop)
    (h : ∀ as, X.Ok c as ↔ as ≠ [] ∧ ∀ a ∈ as, P a) : X.FOk (XField.slice n c) p ↔ p.XEach P ∧ (p = .nil → c.good []) := by
  cases p with
  | nil => simp [X.FOk, XField.slice, PSlice.XEach, PSlice.elems]
  | nilSlice =>
    simp only [X.FOk, XField.slice, PSlice.XEach, PSlice.elems]
    by_cases hw : c.writes [] = true <;> simp [hw]
  | list as =>
    simp only [PSlice.XEach, ← h, X.FOk, XField.slice, PSlice.elems, X.Ok, reduceCtorEq, false_imp_iff, and_true]
    by_cases hw : c.writes as = true <;> simp [hw]

/-! ### Structs -/

theorem xokF_nil (b : Unit) : X.OkF .nil b ↔ True := by simp [X.OkF, XFields.norm, XFields.good]
theorem xokF_skip {α β : Type} (z : α) (F : XFields β) (b : α × β) :
    X.OkF (.skip z F) b ↔ b.1 = z ∧ X.OkF F b.2 := by
  obtain ⟨x, y⟩ := b
  simp only [X.OkF, XFields.norm, XFields.good, Prod.mk.injEq]
  exact ⟨fun h => ⟨h.1.1.symm, h.1.2, h.2⟩, fun h => ⟨⟨h.1.symm, h.2.1⟩, h.2.2⟩⟩
theorem xokF_attr {α β : Type} (n : String) (oe : Bool) (c : XText α) (F : XFields β) (b : α × β) :
    X.OkF (.attr n oe c F) b ↔ X.AOk oe c b.1 ∧ X.OkF F b.2 := by
  obtain ⟨x, y⟩ := b
  simp only [X.OkF, X.AOk, XFields.norm, XFields.good, Prod.mk.injEq]
  exact ⟨fun h => ⟨⟨h.1.1, h.2.1⟩, h.1.2, h.2.2⟩, fun h => ⟨⟨h.1.1, h.2.1⟩, h.1.2, h.2.2⟩⟩
theorem xokF_attrPtr {α β : Type} (n : String) (c : XText α) (F : XFields β) (b : Option α × β) :
    X.OkF (.attrPtr n c F) b ↔ (∀ a ∈ b.1, X.TOk c a) ∧ X.OkF F b.2 := by
  obtain ⟨x, y⟩ := b
  cases x
  · simp [X.OkF, X.TOk, XFields.norm, XFields.good, Prod.mk.injEq]
  · simp only [X.OkF, X.TOk, XFields.norm, XFields.good, Prod.mk.injEq, Option.map_some, Option.some.injEq,
      Option.mem_some_iff, forall_eq']
    exact ⟨fun h => ⟨⟨h.1.1, h.2.1⟩, h.1.2, h.2.2⟩, fun h => ⟨⟨h.1.1, h.2.1⟩, h.1.2, h.2.2⟩⟩
theorem xokF_chardata {β : Type} (F : XFields β) (b : String × β) :
    X.OkF (.chardata F) b ↔ XString b.1 ∧ X.OkF F b.2 := by
  obtain ⟨x, y⟩ := b
  simp only [X.OkF, XFields.norm, XFields.good, Prod.mk.injEq, sanitize_eq, and_assoc]
theorem xokF_elem {α β : Type} (f : XField α) (F : XFields β) (b : α × β) :
    X.OkF (.elem f F) b ↔ X.FOk f b.1 ∧ X.OkF F b.2 := by
  obtain ⟨x, y⟩ := b
  simp only [X.OkF, X.FOk, XFields.norm, XFields.good, Prod.mk.injEq]
  exact ⟨fun h => ⟨⟨h.1.1, h.2.1⟩, h.1.2, h.2.2⟩, fun h => ⟨⟨h.1.1, h.2.1⟩, h.1.2, h.2.2⟩⟩

theorem xok_struct {σ β : Type} (F : XFields β) (toP : σ → β) (ofP : β → σ) (h1 : ∀ s, ofP (toP s) = s)
    (h2 : ∀ p, toP (ofP p) = p) (s : σ) : X.Ok (XCodec.struct F toP ofP) s ↔ X.OkF F (toP s) := by
  simp only [X.Ok, X.OkF, XCodec.struct, true_and]
  refine and_congr_left fun _ => ⟨fun h => ?_, fun h => ?_⟩
  · rw [← h2 (F.norm (toP s)), h]
  · rw [h, h1]

theorem XSameAt.ok {α : Type} {C D : XCodec α} {a : α} (h : XSameAt C D a) : X.Ok C a ↔ X.Ok D a := by
  simp only [X.Ok, h.norm, h.good, h.writes]

theorem PSlice.xeach_congr {α : Type} {P Q : α → Prop} {p : PSlice α} (h : ∀ a ∈ p.elems, (P a ↔ Q a)) :
    p.XEach P ↔ p.XEach Q := by
  cases p with
  | nil => exact Iff.rfl
  | nilSlice => exact Iff.rfl
  | list as => exact and_congr_right fun _ => forall₂_congr h

theorem flatMap_eq_self {α : Type} {f : α → List α} (hf : ∀ a, (f a).length ≤ 1) (as : List α) :
    as.flatMap f = as ↔ ∀ a ∈ as, f a = [a] := by
  have hlen : ∀ as : List α, (as.flatMap f).length ≤ as.length := by
    intro as
    induction as with
    | nil => simp
    | cons a as ih => have := hf a; simp only [List.flatMap_cons, List.length_append, List.length_cons]; omega
  induction as with
  | nil => simp
  | cons a as ih =>
    simp only [List.flatMap_cons, List.forall_mem_cons, ← ih]
    have h1 := hf a
    have h2 := hlen as
    cases hfa : f a with
    | nil =>
      simp only [List.nil_append, reduceCtorEq, false_and, iff_false]
      intro e
      have := congrArg List.length e
      simp only [List.length_cons] at this
      omega
    | cons b bs =>
      rw [hfa] at h1
      have : bs = [] := by cases bs with | nil => rfl | cons _ _ => simp at h1
      subst this
      simp

theorem xeach_flatMap {α : Type} {f : α → List α} {P Q : α → Prop} (hf : ∀ a, (f a).length ≤ 1)
    (h : ∀ a, f a = [a] ∧ Q a ↔ P a) (p : PSlice α) :
    XField.ofList (p.elems.flatMap f) = p ∧ (∀ a ∈ p.elems, Q a) ↔ p.XEach P := by
  have key : ∀ as : List α, as.flatMap f = as ∧ (∀ a ∈ as, Q a) ↔ ∀ a ∈ as, P a := by
    intro as
    rw [flatMap_eq_self hf]
    exact ⟨fun h' a ha => (h a).1 ⟨h'.1 a ha, h'.2 a ha⟩,
      fun h' => ⟨fun a ha => ((h a).2 (h' a ha)).1, fun a ha => ((h a).2 (h' a ha)).2⟩⟩
  cases p with
  | nil => simp [PSlice.elems, PSlice.XEach, XField.ofList]
  | nilSlice => simp [PSlice.elems, PSlice.XEach, XField.ofList]
  | list as =>
    simp only [PSlice.elems, PSlice.XEach, ← key, ofList_eq, PSlice.list.injEq, reduceCtorEq, and_false, false_or]
    constructor
    · rintro ⟨⟨h1, h2⟩, h3⟩; exact ⟨h2 ▸ h1, h2.symm, h3⟩
    · rintro ⟨h1, h2, h3⟩; exact ⟨⟨by rw [h2]; exact h1, h2.symm⟩, h3⟩

theorem xeach_map {α : Type} {f : α → α} {P Q : α → Prop} (h : ∀ a, f a = a ∧ Q a ↔ P a) (p : PSlice α) :
    XField.ofList (p.elems.map f) = p ∧ (∀ a ∈ p.elems, Q a) ↔ p.XEach P := by
  have := xeach_flatMap (f := fun a => [f a]) (P := P) (Q := Q) (fun _ => by simp) (fun a => by simpa using h a) p
  have e : ∀ as : List α, as.flatMap (fun a => [f a]) = as.map f := by
    intro as
    induction as with
    | nil => rfl
    | cons a as ih => simp [List.flatMap_cons, ih]
  rwa [e] at this

theorem xeach_strings (p : PSlice String) : XField.ofList (p.elems.map sanitize) = p ↔ p.XEach XString := by
  have := xeach_map (f := sanitize) (P := XString) (Q := fun _ => True) (fun a => by simp [sanitize_eq]) p
  simpa using this

theorem xok_dependencyRef (s : String) : X.Ok X.dependencyRef s ↔ XString s := by
  simp [X.Ok, X.dependencyRef, XCodec.struct, X.bomReferenceFields, XFields.norm, XFields.good, XText.string, sanitize_eq]

instance : XNonEmpty X.dependencyRef := ⟨fun _ => rfl⟩

instance : XNonEmpty X.advisory := ⟨fun _ => rfl⟩
instance : XAlways X.advisory := ⟨fun _ => rfl⟩

theorem xok_advisory (x : Advisory) : X.Ok X.advisory x ↔ x.XPlain := by
  show X.Ok X.advisory x ↔ _
  rw [X.advisory, xok_struct X.advisoryFields _ _ (fun _ => rfl) (fun _ => rfl)]
  simp only [X.advisoryFields, xokF_nil, xokF_skip, xokF_attr, xokF_attrPtr, xokF_chardata, xokF_elem, Advisory.toP, Advisory.XPlain, fok_plain_simple, fok_plain_ref, fok_plain_struct, fok_ptr, fok_list, fok_nlist, fok_dataflow, fok_evidenceData, aok_string, aok_ref, aok_int, aok_bool, aok_f32, xok_text, tok_string, tok_ref, tok_int, tok_bool, tok_f32, tok_f64, xok_ref, eok_string, eok_ref, eok_int, eok_of, and_true, true_and, implies_true]

instance : XNonEmpty X.affectedVersions := ⟨fun _ => rfl⟩
instance : XAlways X.affectedVersions := ⟨fun _ => rfl⟩

theorem xok_affectedVersions (x : AffectedVersions) : X.Ok X.affectedVersions x ↔ x.XPlain := by
  show X.Ok X.affectedVersions x ↔ _
  rw [X.affectedVersions, xok_struct X.affectedVersionsFields _ _ (fun _ => rfl) (fun _ => rfl)]
  simp only [X.affectedVersionsFields, xokF_nil, xokF_skip, xokF_attr, xokF_attrPtr, xokF_chardata, xokF_elem, AffectedVersions.toP, AffectedVersions.XPlain, fok_plain_simple, fok_plain_ref, fok_plain_struct, fok_ptr, fok_list, fok_nlist, fok_dataflow, fok_evidenceData, aok_string, aok_ref, aok_int, aok_bool, aok_f32, xok_text, tok_string, tok_ref, tok_int, tok_bool, tok_f32, tok_f64, xok_ref, eok_string, eok_ref, eok_int, eok_of, and_true, true_and, implies_true]

instance : XNonEmpty X.affects := ⟨fun _ => rfl⟩
instance : XAlways X.affects := ⟨fun _ => rfl⟩

theorem xok_affects (x : Affects) : X.Ok X.affects x ↔ x.XPlain := by
  show X.Ok X.affects x ↔ _
  rw [X.affects, xok_struct X.affectsFields _ _ (fun _ => rfl) (fun _ => rfl)]
  simp only [X.affectsFields, xokF_nil, xokF_skip, xokF_attr, xokF_attrPtr, xokF_chardata, xokF_elem, Affects.toP, Affects.XPlain, fok_plain_simple, fok_plain_ref, fok_plain_struct, fok_ptr, fok_list, fok_nlist, fok_dataflow, fok_evidenceData, aok_string, aok_ref, aok_int, aok_bool, aok_f32, xok_text, tok_string, tok_ref, tok_int, tok_bool, tok_f32, tok_f64, xok_ref, eok_string, eok_ref, eok_int, eok_of, xok_affectedVersions, and_true, true_and, implies_true]

instance : XNonEmpty X.attachedText := ⟨fun _ => rfl⟩
instance : XAlways X.attachedText := ⟨fun _ => rfl⟩

theorem xok_attachedText (x : AttachedText) : X.Ok X.attachedText x ↔ x.XPlain := by
  show X.Ok X.attachedText x ↔ _
  rw [X.attachedText, xok_struct X.attachedTextFields _ _ (fun _ => rfl) (fun _ => rfl)]
  simp only [X.attachedTextFields, xokF_nil, xokF_skip, xokF_attr, xokF_attrPtr, xokF_chardata, xokF_elem, AttachedText.toP, AttachedText.XPlain, fok_plain_simple, fok_plain_ref, fok_plain_struct, fok_ptr, fok_list, fok_nlist, fok_dataflow, fok_evidenceData, aok_string, aok_ref, aok_int, aok_bool, aok_f32, xok_text, tok_string, tok_ref, tok_int, tok_bool, tok_f32, tok_f64, xok_ref, eok_string, eok_ref, eok_int, eok_of, and_true, true_and, implies_true]

instance : XNonEmpty X.property := ⟨fun _ => rfl⟩
instance : XAlways X.property := ⟨fun _ => rfl⟩

theorem xok_property (x : Property) : X.Ok X.property x ↔ x.XPlain := by
  show X.Ok X.property x ↔ _
  rw [X.property, xok_struct X.propertyFields _ _ (fun _ => rfl) (fun _ => rfl)]
  simp only [X.propertyFields, xokF_nil, xokF_skip, xokF_attr, xokF_attrPtr, xokF_chardata, xokF_elem, Property.toP, Property.XPlain, fok_plain_simple, fok_plain_ref, fok_plain_struct, fok_ptr, fok_list, fok_nlist, fok_dataflow, fok_evidenceData, aok_string, aok_ref, aok_int, aok_bool, aok_f32, xok_text, tok_string, tok_ref, tok_int, tok_bool, tok_f32, tok_f64, xok_ref, eok_string, eok_ref, eok_int, eok_of, and_true, true_and, implies_true]

instance : XNonEmpty X.componentDataContents := ⟨fun _ => rfl⟩
instance : XAlways X.componentDataContents := ⟨fun _ => rfl⟩

theorem xok_componentDataContents (x : ComponentDataContents) : X.Ok X.componentDataContents x ↔ x.XPlain := by
  show X.Ok X.componentDataContents x ↔ _
  rw [X.componentDataContents, xok_struct X.componentDataContentsFields _ _ (fun _ => rfl) (fun _ => rfl)]
  simp only [X.componentDataContentsFields, xokF_nil, xokF_skip, xokF_attr, xokF_attrPtr, xokF_chardata, xokF_elem, ComponentDataContents.toP, ComponentDataContents.XPlain, fok_plain_simple, fok_plain_ref, fok_plain_struct, fok_ptr, fok_list, fok_nlist, fok_dataflow, fok_evidenceData, aok_string, aok_ref, aok_int, aok_bool, aok_f32, xok_text, tok_string, tok_ref, tok_int, tok_bool, tok_f32, tok_f64, xok_ref, eok_string, eok_ref, eok_int, eok_of, xok_attachedText, xok_property, and_true, true_and, implies_true]

instance : XNonEmpty X.componentDataGraphic := ⟨fun _ => rfl⟩
instance : XAlways X.componentDataGraphic := ⟨fun _ => rfl⟩

theorem xok_componentDataGraphic (x : ComponentDataGraphic) : X.Ok X.componentDataGraphic x ↔ x.XPlain := by
  show X.Ok X.componentDataGraphic x ↔ _
  rw [X.componentDataGraphic, xok_struct X.componentDataGraphicFields _ _ (fun _ => rfl) (fun _ => rfl)]
  simp only [X.componentDataGraphicFields, xokF_nil, xokF_skip, xokF_attr, xokF_attrPtr, xokF_chardata, xokF_elem, ComponentDataGraphic.toP, ComponentDataGraphic.XPlain, fok_plain_simple, fok_plain_ref, fok_plain_struct, fok_ptr, fok_list, fok_nlist, fok_dataflow, fok_evidenceData, aok_string, aok_ref, aok_int, aok_bool, aok_f32, xok_text, tok_string, tok_ref, tok_int, tok_bool, tok_f32, tok_f64, xok_ref, eok_string, eok_ref, eok_int, eok_of, xok_attachedText, and_true, true_and, implies_true]

instance : XNonEmpty X.componentDataGraphics := ⟨fun _ => rfl⟩
instance : XAlways X.componentDataGraphics := ⟨fun _ => rfl⟩

theorem xok_componentDataGraphics (x : ComponentDataGraphics) : X.Ok X.componentDataGraphics x ↔ x.XPlain := by
  show X.Ok X.componentDataGraphics x ↔ _
  rw [X.componentDataGraphics, xok_struct X.componentDataGraphicsFields _ _ (fun _ => rfl) (fun _ => rfl)]
  simp only [X.componentDataGraphicsFields, xokF_nil, xokF_skip, xokF_attr, xokF_attrPtr, xokF_chardata, xokF_elem, ComponentDataGraphics.toP, ComponentDataGraphics.XPlain, fok_plain_simple, fok_plain_ref, fok_plain_struct, fok_ptr, fok_list, fok_nlist, fok_dataflow, fok_evidenceData, aok_string, aok_ref, aok_int, aok_bool, aok_f32, xok_text, tok_string, tok_ref, tok_int, tok_bool, tok_f32, tok_f64, xok_ref, eok_string, eok_ref, eok_int, eok_of, xok_componentDataGraphic, and_true, true_and, implies_true]

instance : XNonEmpty X.organizationalContact := ⟨fun _ => rfl⟩
instance : XAlways X.organizationalContact := ⟨fun _ => rfl⟩

theorem xok_organizationalContact (x : OrganizationalContact) : X.Ok X.organizationalContact x ↔ x.XPlain := by
  show X.Ok X.organizationalContact x ↔ _
  rw [X.organizationalContact, xok_struct X.organizationalContactFields _ _ (fun _ => rfl) (fun _ => rfl)]
  simp only [X.organizationalContactFields, xokF_nil, xokF_skip, xokF_attr, xokF_attrPtr, xokF_chardata, xokF_elem, OrganizationalContact.toP, OrganizationalContact.XPlain, fok_plain_simple, fok_plain_ref, fok_plain_struct, fok_ptr, fok_list, fok_nlist, fok_dataflow, fok_evidenceData, aok_string, aok_ref, aok_int, aok_bool, aok_f32, xok_text, tok_string, tok_ref, tok_int, tok_bool, tok_f32, tok_f64, xok_ref, eok_string, eok_ref, eok_int, eok_of, and_true, true_and, implies_true]

instance : XNonEmpty X.postalAddress := ⟨fun _ => rfl⟩
instance : XAlways X.postalAddress := ⟨fun _ => rfl⟩

theorem xok_postalAddress (x : PostalAddress) : X.Ok X.postalAddress x ↔ x.XPlain := by
  show X.Ok X.postalAddress x ↔ _
  rw [X.postalAddress, xok_struct X.postalAddressFields _ _ (fun _ => rfl) (fun _ => rfl)]
  simp only [X.postalAddressFields, xokF_nil, xokF_skip, xokF_attr, xokF_attrPtr, xokF_chardata, xokF_elem, PostalAddress.toP, PostalAddress.XPlain, fok_plain_simple, fok_plain_ref, fok_plain_struct, fok_ptr, fok_list, fok_nlist, fok_dataflow, fok_evidenceData, aok_string, aok_ref, aok_int, aok_bool, aok_f32, xok_text, tok_string, tok_ref, tok_int, tok_bool, tok_f32, tok_f64, xok_ref, eok_string, eok_ref, eok_int, eok_of, and_true, true_and, implies_true]

instance : XNonEmpty X.organizationalEntity := ⟨fun _ => rfl⟩
instance : XAlways X.organizationalEntity := ⟨fun _ => rfl⟩

theorem xok_organizationalEntity (x : OrganizationalEntity) : X.Ok X.organizationalEntity x ↔ x.XPlain := by
  show X.Ok X.organizationalEntity x ↔ _
  rw [X.organizationalEntity, xok_struct X.organizationalEntityFields _ _ (fun _ => rfl) (fun _ => rfl)]
  simp only [X.organizationalEntityFields, xokF_nil, xokF_skip, xokF_attr, xokF_attrPtr, xokF_chardata, xokF_elem, OrganizationalEntity.toP, OrganizationalEntity.XPlain, fok_plain_simple, fok_plain_ref, fok_plain_struct, fok_ptr, fok_list, fok_nlist, fok_dataflow, fok_evidenceData, aok_string, aok_ref, aok_int, aok_bool, aok_f32, xok_text, tok_string, tok_ref, tok_int, tok_bool, tok_f32, tok_f64, xok_ref, eok_string, eok_ref, eok_int, eok_of, xok_organizationalContact, xok_postalAddress, and_true, true_and, implies_true]

instance : XNonEmpty X.componentDataGovernanceResponsibleParty := ⟨fun _ => rfl⟩
instance : XAlways X.componentDataGovernanceResponsibleParty := ⟨fun _ => rfl⟩

theorem xok_componentDataGovernanceResponsibleParty (x : ComponentDataGovernanceResponsibleParty) : X.Ok X.componentDataGovernanceResponsibleParty x ↔ x.XPlain := by
  show X.Ok X.componentDataGovernanceResponsibleParty x ↔ _
  rw [X.componentDataGovernanceResponsibleParty, xok_struct X.componentDataGovernanceResponsiblePartyFields _ _ (fun _ => rfl) (fun _ => rfl)]
  simp only [X.componentDataGovernanceResponsiblePartyFields, xokF_nil, xokF_skip, xokF_attr, xokF_attrPtr, xokF_chardata, xokF_elem, ComponentDataGovernanceResponsibleParty.toP, ComponentDataGovernanceResponsibleParty.XPlain, fok_plain_simple, fok_plain_ref, fok_plain_struct, fok_ptr, fok_list, fok_nlist, fok_dataflow, fok_evidenceData, aok_string, aok_ref, aok_int, aok_bool, aok_f32, xok_text, tok_string, tok_ref, tok_int, tok_bool, tok_f32, tok_f64, xok_ref, eok_string, eok_ref, eok_int, eok_of, xok_organizationalContact, xok_organizationalEntity, and_true, true_and, implies_true]

instance : XNonEmpty X.dataGovernance := ⟨fun _ => rfl⟩
instance : XAlways X.dataGovernance := ⟨fun _ => rfl⟩

theorem xok_dataGovernance (x : DataGovernance) : X.Ok X.dataGovernance x ↔ x.XPlain := by
  show X.Ok X.dataGovernance x ↔ _
  rw [X.dataGovernance, xok_struct X.dataGovernanceFields _ _ (fun _ => rfl) (fun _ => rfl)]
  simp only [X.dataGovernanceFields, xokF_nil, xokF_skip, xokF_attr, xokF_attrPtr, xokF_chardata, xokF_elem, DataGovernance.toP, DataGovernance.XPlain, fok_plain_simple, fok_plain_ref, fok_plain_struct, fok_ptr, fok_list, fok_nlist, fok_dataflow, fok_evidenceData, aok_string, aok_ref, aok_int, aok_bool, aok_f32, xok_text, tok_string, tok_ref, tok_int, tok_bool, tok_f32, tok_f64, xok_ref, eok_string, eok_ref, eok_int, eok_of, xok_componentDataGovernanceResponsibleParty, and_true, true_and, implies_true]

instance : XNonEmpty X.componentData := ⟨fun _ => rfl⟩
instance : XAlways X.componentData := ⟨fun _ => rfl⟩

theorem xok_componentData (x : ComponentData) : X.Ok X.componentData x ↔ x.XPlain := by
  show X.Ok X.componentData x ↔ _
  rw [X.componentData, xok_struct X.componentDataFields _ _ (fun _ => rfl) (fun _ => rfl)]
  simp only [X.componentDataFields, xokF_nil, xokF_skip, xokF_attr, xokF_attrPtr, xokF_chardata, xokF_elem, ComponentData.toP, ComponentData.XPlain, fok_plain_simple, fok_plain_ref, fok_plain_struct, fok_ptr, fok_list, fok_nlist, fok_dataflow, fok_evidenceData, aok_string, aok_ref, aok_int, aok_bool, aok_f32, xok_text, tok_string, tok_ref, tok_int, tok_bool, tok_f32, tok_f64, xok_ref, eok_string, eok_ref, eok_int, eok_of, xok_componentDataContents, xok_componentDataGraphics, xok_dataGovernance, and_true, true_and, implies_true]

instance : XNonEmpty X.hash := ⟨fun _ => rfl⟩
instance : XAlways X.hash := ⟨fun _ => rfl⟩

theorem xok_hash (x : Hash) : X.Ok X.hash x ↔ x.XPlain := by
  show X.Ok X.hash x ↔ _
  rw [X.hash, xok_struct X.hashFields _ _ (fun _ => rfl) (fun _ => rfl)]
  simp only [X.hashFields, xokF_nil, xokF_skip, xokF_attr, xokF_attrPtr, xokF_chardata, xokF_elem, Hash.toP, Hash.XPlain, fok_plain_simple, fok_plain_ref, fok_plain_struct, fok_ptr, fok_list, fok_nlist, fok_dataflow, fok_evidenceData, aok_string, aok_ref, aok_int, aok_bool, aok_f32, xok_text, tok_string, tok_ref, tok_int, tok_bool, tok_f32, tok_f64, xok_ref, eok_string, eok_ref, eok_int, eok_of, and_true, true_and, implies_true]

instance : XNonEmpty X.relatedCryptographicAsset := ⟨fun _ => rfl⟩
instance : XAlways X.relatedCryptographicAsset := ⟨fun _ => rfl⟩

theorem xok_relatedCryptographicAsset (x : RelatedCryptographicAsset) : X.Ok X.relatedCryptographicAsset x ↔ x.XPlain := by
  show X.Ok X.relatedCryptographicAsset x ↔ _
  rw [X.relatedCryptographicAsset, xok_struct X.relatedCryptographicAssetFields _ _ (fun _ => rfl) (fun _ => rfl)]
  simp only [X.relatedCryptographicAssetFields, xokF_nil, xokF_skip, xokF_attr, xokF_attrPtr, xokF_chardata, xokF_elem, RelatedCryptographicAsset.toP, RelatedCryptographicAsset.XPlain, fok_plain_simple, fok_plain_ref, fok_plain_struct, fok_ptr, fok_list, fok_nlist, fok_dataflow, fok_evidenceData, aok_string, aok_ref, aok_int, aok_bool, aok_f32, xok_text, tok_string, tok_ref, tok_int, tok_bool, tok_f32, tok_f64, xok_ref, eok_string, eok_ref, eok_int, eok_of, and_true, true_and, implies_true]

instance : XNonEmpty X.certificateState := ⟨fun _ => rfl⟩

theorem xok_certificateState (x : CertificateState) : X.Ok X.certificateState x ↔ x.XPlain := by
  obtain ⟨p, q⟩ := x
  cases p with
  | some p =>
    obtain ⟨a, b⟩ := p
    by_cases ha : a = ""
    · cases q <;> simp [X.Ok, X.certificateState, CertificateState.XPlain, sanitize_eq, ha]
      all_goals
        intro p h1 _ _ h2
        subst h2
        exact h1 rfl
    · cases q <;> simp [X.Ok, X.certificateState, CertificateState.XPlain, sanitize_eq, ha]
      constructor
      · intro h; exact ⟨⟨a, b⟩, ha, h.1, h.2, rfl⟩
      · rintro ⟨p, _, h1, h2, rfl⟩; exact ⟨h1, h2⟩
  | none =>
    cases q with
    | some q =>
      obtain ⟨q0, q1, q2⟩ := q
      simp [X.Ok, X.certificateState, CertificateState.XPlain, sanitize_eq]
      grind
    | none => simp [X.Ok, X.certificateState, CertificateState.XPlain]

instance : XNonEmpty X.certificateExtension := ⟨fun _ => rfl⟩

theorem xok_certificateExtension (x : CertificateExtension) : X.Ok X.certificateExtension x ↔ x.XPlain := by
  obtain ⟨p, q⟩ := x
  cases p with
  | some p =>
    obtain ⟨a, b⟩ := p
    by_cases ha : a = ""
    · cases q <;> simp [X.Ok, X.certificateExtension, CertificateExtension.XPlain, sanitize_eq, ha]
      all_goals
        intro p h1 _ _ h2
        subst h2
        exact h1 rfl
    · cases q <;> simp [X.Ok, X.certificateExtension, CertificateExtension.XPlain, sanitize_eq, ha]
      constructor
      · intro h; exact ⟨⟨a, b⟩, ha, h.1, h.2, rfl⟩
      · rintro ⟨p, _, h1, h2, rfl⟩; exact ⟨h1, h2⟩
  | none =>
    cases q with
    | some q =>
      obtain ⟨q0, q1⟩ := q
      simp [X.Ok, X.certificateExtension, CertificateExtension.XPlain, sanitize_eq]
      
    | none => simp [X.Ok, X.certificateExtension, CertificateExtension.XPlain]

instance : XNonEmpty X.certificateProperties := ⟨fun _ => rfl⟩
instance : XAlways X.certificateProperties := ⟨fun _ => rfl⟩

theorem xok_certificateProperties (x : CertificateProperties) : X.Ok X.certificateProperties x ↔ x.XPlain := by
  show X.Ok X.certificateProperties x ↔ _
  rw [X.certificateProperties, xok_struct X.certificatePropertiesFields _ _ (fun _ => rfl) (fun _ => rfl)]
  simp only [X.certificatePropertiesFields, xokF_nil, xokF_skip, xokF_attr, xokF_attrPtr, xokF_chardata, xokF_elem, CertificateProperties.toP, CertificateProperties.XPlain, fok_plain_simple, fok_plain_ref, fok_plain_struct, fok_ptr, fok_list, fok_nlist, fok_dataflow, fok_evidenceData, aok_string, aok_ref, aok_int, aok_bool, aok_f32, xok_text, tok_string, tok_ref, tok_int, tok_bool, tok_f32, tok_f64, xok_ref, eok_string, eok_ref, eok_int, eok_of, xok_certificateExtension, xok_certificateState, xok_hash, xok_relatedCryptographicAsset, and_true, true_and, implies_true]

instance : XNonEmpty X.cryptoAlgorithmProperties := ⟨fun _ => rfl⟩
instance : XAlways X.cryptoAlgorithmProperties := ⟨fun _ => rfl⟩

theorem xok_cryptoAlgorithmProperties (x : CryptoAlgorithmProperties) : X.Ok X.cryptoAlgorithmProperties x ↔ x.XPlain := by
  show X.Ok X.cryptoAlgorithmProperties x ↔ _
  rw [X.cryptoAlgorithmProperties, xok_struct X.cryptoAlgorithmPropertiesFields _ _ (fun _ => rfl) (fun _ => rfl)]
  simp only [X.cryptoAlgorithmPropertiesFields, xokF_nil, xokF_skip, xokF_attr, xokF_attrPtr, xokF_chardata, xokF_elem, CryptoAlgorithmProperties.toP, CryptoAlgorithmProperties.XPlain, fok_plain_simple, fok_plain_ref, fok_plain_struct, fok_ptr, fok_list, fok_nlist, fok_dataflow, fok_evidenceData, aok_string, aok_ref, aok_int, aok_bool, aok_f32, xok_text, tok_string, tok_ref, tok_int, tok_bool, tok_f32, tok_f64, xok_ref, eok_string, eok_ref, eok_int, eok_of, and_true, true_and, implies_true]

instance : XNonEmpty X.cipherSuite := ⟨fun _ => rfl⟩
instance : XAlways X.cipherSuite := ⟨fun _ => rfl⟩

theorem xok_cipherSuite (x : CipherSuite) : X.Ok X.cipherSuite x ↔ x.XPlain := by
  show X.Ok X.cipherSuite x ↔ _
  rw [X.cipherSuite, xok_struct X.cipherSuiteFields _ _ (fun _ => rfl) (fun _ => rfl)]
  simp only [X.cipherSuiteFields, xokF_nil, xokF_skip, xokF_attr, xokF_attrPtr, xokF_chardata, xokF_elem, CipherSuite.toP, CipherSuite.XPlain, fok_plain_simple, fok_plain_ref, fok_plain_struct, fok_ptr, fok_list, fok_nlist, fok_dataflow, fok_evidenceData, aok_string, aok_ref, aok_int, aok_bool, aok_f32, xok_text, tok_string, tok_ref, tok_int, tok_bool, tok_f32, tok_f64, xok_ref, eok_string, eok_ref, eok_int, eok_of, and_true, true_and, implies_true]

instance : XNonEmpty X.ikev2Auth := ⟨fun _ => rfl⟩

theorem xok_ikev2AuthFields (x : IKEv2Auth) : X.OkF X.ikev2AuthFields (IKEv2Auth.toP x).2 ↔ XString x.name ∧ XString x.algorithm := by
  simp only [X.ikev2AuthFields, xokF_nil, xokF_skip, xokF_attr, xokF_attrPtr, xokF_chardata, xokF_elem, IKEv2Auth.toP, fok_plain_simple, fok_plain_ref, fok_plain_struct, fok_ptr, fok_list, fok_nlist, fok_dataflow, fok_evidenceData, aok_string, aok_ref, aok_int, aok_bool, aok_f32, xok_text, tok_string, tok_ref, tok_int, tok_bool, tok_f32, tok_f64, xok_ref, eok_string, eok_ref, eok_int, eok_of, and_true, true_and, implies_true]

theorem xok_ikev2Auth (x : IKEv2Auth) : X.Ok X.ikev2Auth x ↔ x.XPlain := by
  have hF := xok_ikev2AuthFields x
  rw [IKEv2Auth.XPlain, ← hF]
  obtain ⟨⟨r⟩, x0, x1⟩ := x
  by_cases hr : r = ""
  · simp only [X.Ok, X.OkF, X.ikev2Auth, X.ikev2, hr, IKEv2Auth.toP, IKEv2Auth.ofP]
    simp
    intro hg
    generalize X.ikev2AuthFields.norm _ = p
    obtain ⟨p0, p1, ⟨⟩⟩ := p
    simp
  · simp only [X.Ok, X.ikev2Auth, X.ikev2, hr, IKEv2Auth.toP, IKEv2Auth.ofP, IKEv2Auth.mk.injEq, BOMReference.mk.injEq]
    simp [trim_sanitize_eq, hr, X.ikev2AuthFields, XFields.zero, XField.ptr, XField.plain, XCodec.simple, XText.string]
    grind

instance : XNonEmpty X.ikev2Enc := ⟨fun _ => rfl⟩

theorem xok_ikev2EncFields (x : IKEv2Enc) : X.OkF X.ikev2EncFields (IKEv2Enc.toP x).2 ↔ XString x.name ∧ (∀ y ∈ x.keyLength, InInt64 y) ∧ XString x.algorithm := by
  simp only [X.ikev2EncFields, xokF_nil, xokF_skip, xokF_attr, xokF_attrPtr, xokF_chardata, xokF_elem, IKEv2Enc.toP, fok_plain_simple, fok_plain_ref, fok_plain_struct, fok_ptr, fok_list, fok_nlist, fok_dataflow, fok_evidenceData, aok_string, aok_ref, aok_int, aok_bool, aok_f32, xok_text, tok_string, tok_ref, tok_int, tok_bool, tok_f32, tok_f64, xok_ref, eok_string, eok_ref, eok_int, eok_of, and_true, true_and, implies_true]

theorem xok_ikev2Enc (x : IKEv2Enc) : X.Ok X.ikev2Enc x ↔ x.XPlain := by
  have hF := xok_ikev2EncFields x
  rw [IKEv2Enc.XPlain, ← hF]
  obtain ⟨⟨r⟩, x0, x1, x2⟩ := x
  by_cases hr : r = ""
  · simp only [X.Ok, X.OkF, X.ikev2Enc, X.ikev2, hr, IKEv2Enc.toP, IKEv2Enc.ofP]
    simp
    intro hg
    generalize X.ikev2EncFields.norm _ = p
    obtain ⟨p0, p1, p2, ⟨⟩⟩ := p
    simp
  · simp only [X.Ok, X.ikev2Enc, X.ikev2, hr, IKEv2Enc.toP, IKEv2Enc.ofP, IKEv2Enc.mk.injEq, BOMReference.mk.injEq]
    simp [trim_sanitize_eq, hr, X.ikev2EncFields, XFields.zero, XField.ptr, XField.plain, XCodec.simple, XText.string]
    grind

instance : XNonEmpty X.ikev2Integ := ⟨fun _ => rfl⟩

theorem xok_ikev2IntegFields (x : IKEv2Integ) : X.OkF X.ikev2IntegFields (IKEv2Integ.toP x).2 ↔ XString x.name ∧ XString x.algorithm := by
  simp only [X.ikev2IntegFields, xokF_nil, xokF_skip, xokF_attr, xokF_attrPtr, xokF_chardata, xokF_elem, IKEv2Integ.toP, fok_plain_simple, fok_plain_ref, fok_plain_struct, fok_ptr, fok_list, fok_nlist, fok_dataflow, fok_evidenceData, aok_string, aok_ref, aok_int, aok_bool, aok_f32, xok_text, tok_string, tok_ref, tok_int, tok_bool, tok_f32, tok_f64, xok_ref, eok_string, eok_ref, eok_int, eok_of, and_true, true_and, implies_true]

theorem xok_ikev2Integ (x : IKEv2Integ) : X.Ok X.ikev2Integ x ↔ x.XPlain := by
  have hF := xok_ikev2IntegFields x
  rw [IKEv2Integ.XPlain, ← hF]
  obtain ⟨⟨r⟩, x0, x1⟩ := x
  by_cases hr : r = ""
  · simp only [X.Ok, X.OkF, X.ikev2Integ, X.ikev2, hr, IKEv2Integ.toP, IKEv2Integ.ofP]
    simp
    intro hg
    generalize X.ikev2IntegFields.norm _ = p
    obtain ⟨p0, p1, ⟨⟩⟩ := p
    simp
  · simp only [X.Ok, X.ikev2Integ, X.ikev2, hr, IKEv2Integ.toP, IKEv2Integ.ofP, IKEv2Integ.mk.injEq, BOMReference.mk.injEq]
    simp [trim_sanitize_eq, hr, X.ikev2IntegFields, XFields.zero, XField.ptr, XField.plain, XCodec.simple, XText.string]
    grind

instance : XNonEmpty X.ikev2Ke := ⟨fun _ => rfl⟩

theorem xok_ikev2KeFields (x : IKEv2Ke) : X.OkF X.ikev2KeFields (IKEv2Ke.toP x).2 ↔ (∀ y ∈ x.group, InInt64 y) ∧ XString x.algorithm := by
  simp only [X.ikev2KeFields, xokF_nil, xokF_skip, xokF_attr, xokF_attrPtr, xokF_chardata, xokF_elem, IKEv2Ke.toP, fok_plain_simple, fok_plain_ref, fok_plain_struct, fok_ptr, fok_list, fok_nlist, fok_dataflow, fok_evidenceData, aok_string, aok_ref, aok_int, aok_bool, aok_f32, xok_text, tok_string, tok_ref, tok_int, tok_bool, tok_f32, tok_f64, xok_ref, eok_string, eok_ref, eok_int, eok_of, and_true, true_and, implies_true]

theorem xok_ikev2Ke (x : IKEv2Ke) : X.Ok X.ikev2Ke x ↔ x.XPlain := by
  have hF := xok_ikev2KeFields x
  rw [IKEv2Ke.XPlain, ← hF]
  obtain ⟨⟨r⟩, x0, x1⟩ := x
  by_cases hr : r = ""
  · simp only [X.Ok, X.OkF, X.ikev2Ke, X.ikev2, hr, IKEv2Ke.toP, IKEv2Ke.ofP]
    simp
    intro hg
    generalize X.ikev2KeFields.norm _ = p
    obtain ⟨p0, p1, ⟨⟩⟩ := p
    simp
  · simp only [X.Ok, X.ikev2Ke, X.ikev2, hr, IKEv2Ke.toP, IKEv2Ke.ofP, IKEv2Ke.mk.injEq, BOMReference.mk.injEq]
    simp [trim_sanitize_eq, hr, X.ikev2KeFields, XFields.zero, XField.ptr, XField.plain, XCodec.simple, XText.string]
    grind

instance : XNonEmpty X.ikev2Prf := ⟨fun _ => rfl⟩

theorem xok_ikev2PrfFields (x : IKEv2Prf) : X.OkF X.ikev2PrfFields (IKEv2Prf.toP x).2 ↔ XString x.name ∧ XString x.algorithm := by
  simp only [X.ikev2PrfFields, xokF_nil, xokF_skip, xokF_attr, xokF_attrPtr, xokF_chardata, xokF_elem, IKEv2Prf.toP, fok_plain_simple, fok_plain_ref, fok_plain_struct, fok_ptr, fok_list, fok_nlist, fok_dataflow, fok_evidenceData, aok_string, aok_ref, aok_int, aok_bool, aok_f32, xok_text, tok_string, tok_ref, tok_int, tok_bool, tok_f32, tok_f64, xok_ref, eok_string, eok_ref, eok_int, eok_of, and_true, true_and, implies_true]

theorem xok_ikev2Prf (x : IKEv2Prf) : X.Ok X.ikev2Prf x ↔ x.XPlain := by
  have hF := xok_ikev2PrfFields x
  rw [IKEv2Prf.XPlain, ← hF]
  obtain ⟨⟨r⟩, x0, x1⟩ := x
  by_cases hr : r = ""
  · simp only [X.Ok, X.OkF, X.ikev2Prf, X.ikev2, hr, IKEv2Prf.toP, IKEv2Prf.ofP]
    simp
    intro hg
    generalize X.ikev2PrfFields.norm _ = p
    obtain ⟨p0, p1, ⟨⟩⟩ := p
    simp
  · simp only [X.Ok, X.ikev2Prf, X.ikev2, hr, IKEv2Prf.toP, IKEv2Prf.ofP, IKEv2Prf.mk.injEq, BOMReference.mk.injEq]
    simp [trim_sanitize_eq, hr, X.ikev2PrfFields, XFields.zero, XField.ptr, XField.plain, XCodec.simple, XText.string]
    grind

instance : XNonEmpty X.ikev2TransformTypes := ⟨fun _ => rfl⟩
instance : XAlways X.ikev2TransformTypes := ⟨fun _ => rfl⟩

theorem xok_ikev2TransformTypes (x : IKEv2TransformTypes) : X.Ok X.ikev2TransformTypes x ↔ x.XPlain := by
  show X.Ok X.ikev2TransformTypes x ↔ _
  rw [X.ikev2TransformTypes, xok_struct X.ikev2TransformTypesFields _ _ (fun _ => rfl) (fun _ => rfl)]
  simp only [X.ikev2TransformTypesFields, xokF_nil, xokF_skip, xokF_attr, xokF_attrPtr, xokF_chardata, xokF_elem, IKEv2TransformTypes.toP, IKEv2TransformTypes.XPlain, fok_plain_simple, fok_plain_ref, fok_plain_struct, fok_ptr, fok_list, fok_nlist, fok_dataflow, fok_evidenceData, aok_string, aok_ref, aok_int, aok_bool, aok_f32, xok_text, tok_string, tok_ref, tok_int, tok_bool, tok_f32, tok_f64, xok_ref, eok_string, eok_ref, eok_int, eok_of, xok_ikev2Auth, xok_ikev2Enc, xok_ikev2Integ, xok_ikev2Ke, xok_ikev2Prf, and_true, true_and, implies_true]

instance : XNonEmpty X.cryptoProtocolProperties := ⟨fun _ => rfl⟩
instance : XAlways X.cryptoProtocolProperties := ⟨fun _ => rfl⟩

theorem xok_cryptoProtocolProperties (x : CryptoProtocolProperties) : X.Ok X.cryptoProtocolProperties x ↔ x.XPlain := by
  show X.Ok X.cryptoProtocolProperties x ↔ _
  rw [X.cryptoProtocolProperties, xok_struct X.cryptoProtocolPropertiesFields _ _ (fun _ => rfl) (fun _ => rfl)]
  simp only [X.cryptoProtocolPropertiesFields, xokF_nil, xokF_skip, xokF_attr, xokF_attrPtr, xokF_chardata, xokF_elem, CryptoProtocolProperties.toP, CryptoProtocolProperties.XPlain, fok_plain_simple, fok_plain_ref, fok_plain_struct, fok_ptr, fok_list, fok_nlist, fok_dataflow, fok_evidenceData, aok_string, aok_ref, aok_int, aok_bool, aok_f32, xok_text, tok_string, tok_ref, tok_int, tok_bool, tok_f32, tok_f64, xok_ref, eok_string, eok_ref, eok_int, eok_of, xok_cipherSuite, xok_ikev2TransformTypes, xok_relatedCryptographicAsset, and_true, true_and, implies_true]

instance : XNonEmpty X.securedBy := ⟨fun _ => rfl⟩
instance : XAlways X.securedBy := ⟨fun _ => rfl⟩

theorem xok_securedBy (x : SecuredBy) : X.Ok X.securedBy x ↔ x.XPlain := by
  show X.Ok X.securedBy x ↔ _
  rw [X.securedBy, xok_struct X.securedByFields _ _ (fun _ => rfl) (fun _ => rfl)]
  simp only [X.securedByFields, xokF_nil, xokF_skip, xokF_attr, xokF_attrPtr, xokF_chardata, xokF_elem, SecuredBy.toP, SecuredBy.XPlain, fok_plain_simple, fok_plain_ref, fok_plain_struct, fok_ptr, fok_list, fok_nlist, fok_dataflow, fok_evidenceData, aok_string, aok_ref, aok_int, aok_bool, aok_f32, xok_text, tok_string, tok_ref, tok_int, tok_bool, tok_f32, tok_f64, xok_ref, eok_string, eok_ref, eok_int, eok_of, and_true, true_and, implies_true]

instance : XNonEmpty X.relatedCryptoMaterialProperties := ⟨fun _ => rfl⟩
instance : XAlways X.relatedCryptoMaterialProperties := ⟨fun _ => rfl⟩

theorem xok_relatedCryptoMaterialProperties (x : RelatedCryptoMaterialProperties) : X.Ok X.relatedCryptoMaterialProperties x ↔ x.XPlain := by
  show X.Ok X.relatedCryptoMaterialProperties x ↔ _
  rw [X.relatedCryptoMaterialProperties, xok_struct X.relatedCryptoMaterialPropertiesFields _ _ (fun _ => rfl) (fun _ => rfl)]
  simp only [X.relatedCryptoMaterialPropertiesFields, xokF_nil, xokF_skip, xokF_attr, xokF_attrPtr, xokF_chardata, xokF_elem, RelatedCryptoMaterialProperties.toP, RelatedCryptoMaterialProperties.XPlain, fok_plain_simple, fok_plain_ref, fok_plain_struct, fok_ptr, fok_list, fok_nlist, fok_dataflow, fok_evidenceData, aok_string, aok_ref, aok_int, aok_bool, aok_f32, xok_text, tok_string, tok_ref, tok_int, tok_bool, tok_f32, tok_f64, xok_ref, eok_string, eok_ref, eok_int, eok_of, xok_hash, xok_relatedCryptographicAsset, xok_securedBy, and_true, true_and, implies_true]

instance : XNonEmpty X.cryptoProperties := ⟨fun _ => rfl⟩
instance : XAlways X.cryptoProperties := ⟨fun _ => rfl⟩

theorem xok_cryptoProperties (x : CryptoProperties) : X.Ok X.cryptoProperties x ↔ x.XPlain := by
  show X.Ok X.cryptoProperties x ↔ _
  rw [X.cryptoProperties, xok_struct X.cryptoPropertiesFields _ _ (fun _ => rfl) (fun _ => rfl)]
  simp only [X.cryptoPropertiesFields, xokF_nil, xokF_skip, xokF_attr, xokF_attrPtr, xokF_chardata, xokF_elem, CryptoProperties.toP, CryptoProperties.XPlain, fok_plain_simple, fok_plain_ref, fok_plain_struct, fok_ptr, fok_list, fok_nlist, fok_dataflow, fok_evidenceData, aok_string, aok_ref, aok_int, aok_bool, aok_f32, xok_text, tok_string, tok_ref, tok_int, tok_bool, tok_f32, tok_f64, xok_ref, eok_string, eok_ref, eok_int, eok_of, xok_certificateProperties, xok_cryptoAlgorithmProperties, xok_cryptoProtocolProperties, xok_relatedCryptoMaterialProperties, and_true, true_and, implies_true]

instance : XNonEmpty X.callstackFrame := ⟨fun _ => rfl⟩
instance : XAlways X.callstackFrame := ⟨fun _ => rfl⟩

theorem xok_callstackFrame (x : CallstackFrame) : X.Ok X.callstackFrame x ↔ x.XPlain := by
  show X.Ok X.callstackFrame x ↔ _
  rw [X.callstackFrame, xok_struct X.callstackFrameFields _ _ (fun _ => rfl) (fun _ => rfl)]
  simp only [X.callstackFrameFields, xokF_nil, xokF_skip, xokF_attr, xokF_attrPtr, xokF_chardata, xokF_elem, CallstackFrame.toP, CallstackFrame.XPlain, fok_plain_simple, fok_plain_ref, fok_plain_struct, fok_ptr, fok_list, fok_nlist, fok_dataflow, fok_evidenceData, aok_string, aok_ref, aok_int, aok_bool, aok_f32, xok_text, tok_string, tok_ref, tok_int, tok_bool, tok_f32, tok_f64, xok_ref, eok_string, eok_ref, eok_int, eok_of, and_true, true_and, implies_true]

instance : XNonEmpty X.callstack := ⟨fun _ => rfl⟩
instance : XAlways X.callstack := ⟨fun _ => rfl⟩

theorem xok_callstack (x : Callstack) : X.Ok X.callstack x ↔ x.XPlain := by
  show X.Ok X.callstack x ↔ _
  rw [X.callstack, xok_struct X.callstackFields _ _ (fun _ => rfl) (fun _ => rfl)]
  simp only [X.callstackFields, xokF_nil, xokF_skip, xokF_attr, xokF_attrPtr, xokF_chardata, xokF_elem, Callstack.toP, Callstack.XPlain, fok_plain_simple, fok_plain_ref, fok_plain_struct, fok_ptr, fok_list, fok_nlist, fok_dataflow, fok_evidenceData, aok_string, aok_ref, aok_int, aok_bool, aok_f32, xok_text, tok_string, tok_ref, tok_int, tok_bool, tok_f32, tok_f64, xok_ref, eok_string, eok_ref, eok_int, eok_of, xok_callstackFrame, and_true, true_and, implies_true]

instance : XNonEmpty X.copyright := ⟨fun _ => rfl⟩

theorem xok_copyright (x : Copyright) : X.Ok X.copyright x ↔ x.XPlain := by
  cases x; simp [X.Ok, X.copyright, Copyright.XPlain, sanitize_eq]

instance : XNonEmpty X.evidenceIdentityMethod := ⟨fun _ => rfl⟩
instance : XAlways X.evidenceIdentityMethod := ⟨fun _ => rfl⟩

theorem xok_evidenceIdentityMethod (x : EvidenceIdentityMethod) : X.Ok X.evidenceIdentityMethod x ↔ x.XPlain := by
  show X.Ok X.evidenceIdentityMethod x ↔ _
  rw [X.evidenceIdentityMethod, xok_struct X.evidenceIdentityMethodFields _ _ (fun _ => rfl) (fun _ => rfl)]
  simp only [X.evidenceIdentityMethodFields, xokF_nil, xokF_skip, xokF_attr, xokF_attrPtr, xokF_chardata, xokF_elem, EvidenceIdentityMethod.toP, EvidenceIdentityMethod.XPlain, fok_plain_simple, fok_plain_ref, fok_plain_struct, fok_ptr, fok_list, fok_nlist, fok_dataflow, fok_evidenceData, aok_string, aok_ref, aok_int, aok_bool, aok_f32, xok_text, tok_string, tok_ref, tok_int, tok_bool, tok_f32, tok_f64, xok_ref, eok_string, eok_ref, eok_int, eok_of, and_true, true_and, implies_true]

instance : XNonEmpty X.evidenceIdentity := ⟨fun _ => rfl⟩
instance : XAlways X.evidenceIdentity := ⟨fun _ => rfl⟩

theorem xok_evidenceIdentity (x : EvidenceIdentity) : X.Ok X.evidenceIdentity x ↔ x.XPlain := by
  show X.Ok X.evidenceIdentity x ↔ _
  rw [X.evidenceIdentity, xok_struct X.evidenceIdentityFields _ _ (fun _ => rfl) (fun _ => rfl)]
  simp only [X.evidenceIdentityFields, xokF_nil, xokF_skip, xokF_attr, xokF_attrPtr, xokF_chardata, xokF_elem, EvidenceIdentity.toP, EvidenceIdentity.XPlain, fok_plain_simple, fok_plain_ref, fok_plain_struct, fok_ptr, fok_list, fok_nlist, fok_dataflow, fok_evidenceData, aok_string, aok_ref, aok_int, aok_bool, aok_f32, xok_text, tok_string, tok_ref, tok_int, tok_bool, tok_f32, tok_f64, xok_ref, eok_string, eok_ref, eok_int, eok_of, xok_evidenceIdentityMethod, and_true, true_and, implies_true]

instance : XNonEmpty X.evidenceOccurrence := ⟨fun _ => rfl⟩
instance : XAlways X.evidenceOccurrence := ⟨fun _ => rfl⟩

theorem xok_evidenceOccurrence (x : EvidenceOccurrence) : X.Ok X.evidenceOccurrence x ↔ x.XPlain := by
  show X.Ok X.evidenceOccurrence x ↔ _
  rw [X.evidenceOccurrence, xok_struct X.evidenceOccurrenceFields _ _ (fun _ => rfl) (fun _ => rfl)]
  simp only [X.evidenceOccurrenceFields, xokF_nil, xokF_skip, xokF_attr, xokF_attrPtr, xokF_chardata, xokF_elem, EvidenceOccurrence.toP, EvidenceOccurrence.XPlain, fok_plain_simple, fok_plain_ref, fok_plain_struct, fok_ptr, fok_list, fok_nlist, fok_dataflow, fok_evidenceData, aok_string, aok_ref, aok_int, aok_bool, aok_f32, xok_text, tok_string, tok_ref, tok_int, tok_bool, tok_f32, tok_f64, xok_ref, eok_string, eok_ref, eok_int, eok_of, and_true, true_and, implies_true]

instance : XNonEmpty X.organizationalEntityOrContact := ⟨fun _ => rfl⟩
instance : XAlways X.organizationalEntityOrContact := ⟨fun _ => rfl⟩

theorem xok_organizationalEntityOrContact (x : OrganizationalEntityOrContact) : X.Ok X.organizationalEntityOrContact x ↔ x.XPlain := by
  show X.Ok X.organizationalEntityOrContact x ↔ _
  rw [X.organizationalEntityOrContact, xok_struct X.organizationalEntityOrContactFields _ _ (fun _ => rfl) (fun _ => rfl)]
  simp only [X.organizationalEntityOrContactFields, xokF_nil, xokF_skip, xokF_attr, xokF_attrPtr, xokF_chardata, xokF_elem, OrganizationalEntityOrContact.toP, OrganizationalEntityOrContact.XPlain, fok_plain_simple, fok_plain_ref, fok_plain_struct, fok_ptr, fok_list, fok_nlist, fok_dataflow, fok_evidenceData, aok_string, aok_ref, aok_int, aok_bool, aok_f32, xok_text, tok_string, tok_ref, tok_int, tok_bool, tok_f32, tok_f64, xok_ref, eok_string, eok_ref, eok_int, eok_of, xok_organizationalContact, xok_organizationalEntity, and_true, true_and, implies_true]

instance : XNonEmpty X.licensing := ⟨fun _ => rfl⟩
instance : XAlways X.licensing := ⟨fun _ => rfl⟩

theorem xok_licensing (x : Licensing) : X.Ok X.licensing x ↔ x.XPlain := by
  show X.Ok X.licensing x ↔ _
  rw [X.licensing, xok_struct X.licensingFields _ _ (fun _ => rfl) (fun _ => rfl)]
  simp only [X.licensingFields, xokF_nil, xokF_skip, xokF_attr, xokF_attrPtr, xokF_chardata, xokF_elem, Licensing.toP, Licensing.XPlain, fok_plain_simple, fok_plain_ref, fok_plain_struct, fok_ptr, fok_list, fok_nlist, fok_dataflow, fok_evidenceData, aok_string, aok_ref, aok_int, aok_bool, aok_f32, xok_text, tok_string, tok_ref, tok_int, tok_bool, tok_f32, tok_f64, xok_ref, eok_string, eok_ref, eok_int, eok_of, xok_organizationalEntityOrContact, and_true, true_and, implies_true]

instance : XNonEmpty X.license := ⟨fun _ => rfl⟩
instance : XAlways X.license := ⟨fun _ => rfl⟩

theorem xok_license (x : License) : X.Ok X.license x ↔ x.XPlain := by
  show X.Ok X.licenseAlias x ↔ _
  rw [X.licenseAlias, xok_struct X.licenseFields _ _ (fun _ => rfl) (fun _ => rfl)]
  simp only [X.licenseFields, xokF_nil, xokF_skip, xokF_attr, xokF_attrPtr, xokF_chardata, xokF_elem, License.toP, License.XPlain, fok_plain_simple, fok_plain_ref, fok_plain_struct, fok_ptr, fok_list, fok_nlist, fok_dataflow, fok_evidenceData, aok_string, aok_ref, aok_int, aok_bool, aok_f32, xok_text, tok_string, tok_ref, tok_int, tok_bool, tok_f32, tok_f64, xok_ref, eok_string, eok_ref, eok_int, eok_of, xok_attachedText, xok_licensing, xok_property, and_true, true_and, implies_true]


instance : XNonEmpty X.licenseExpressionDetail := ⟨fun _ => rfl⟩

theorem xok_licenseExpressionDetail (x : LicenseExpressionDetail) :
    X.Ok X.licenseExpressionDetail x ↔ x.XPlain := by
  have h : X.OkF X.licenseExpressionDetailFields (x.licenseIdentifier, x.text, x.url, ()) ↔
      XString x.licenseIdentifier ∧ (∀ y ∈ x.text, AttachedText.XPlain y) ∧ XString x.url := by
    simp only [X.licenseExpressionDetailFields, xokF_nil, xokF_skip, xokF_attr, xokF_attrPtr, xokF_chardata, xokF_elem, fok_plain_simple, fok_plain_ref, fok_plain_struct, fok_ptr, fok_list, fok_nlist, fok_dataflow, fok_evidenceData, aok_string, aok_ref, aok_int, aok_bool, aok_f32, xok_text, tok_string, tok_ref, tok_int, tok_bool, tok_f32, tok_f64, xok_ref, eok_string, eok_ref, eok_int, eok_of, xok_attachedText, and_true]
  rw [LicenseExpressionDetail.XPlain, ← h]
  obtain ⟨i, r, t, u⟩ := x
  simp only [X.Ok, X.OkF, X.licenseExpressionDetail, XCodec.struct, true_and]
  rw [← and_assoc]
  refine and_congr_left fun _ => ?_
  generalize X.licenseExpressionDetailFields.norm _ = p
  obtain ⟨p1, p2, p3, ⟨⟩⟩ := p
  simp only [Prod.mk.injEq, LicenseExpressionDetail.mk.injEq, and_true]
  grind

theorem xok_licenseChoice (x : LicenseChoice) :
    X.licenseChoiceNorm x = [x] ∧ (∀ m ∈ x.license, X.license.good m) ↔ x.XPlain := by
  have hd : XField.ofList (XField.normList false X.licenseExpressionDetail x.expressionDetails.elems) = x.expressionDetails ↔
      x.expressionDetails.XEach LicenseExpressionDetail.XPlain := by
    have := ofList_normList false X.licenseExpressionDetail x.expressionDetails
    simp only [eok_of, xok_licenseExpressionDetail] at this
    rw [← this]
    exact ⟨fun h => ⟨h, fun a _ => licenseExpressionDetail_good a⟩, fun h => h.1⟩
  obtain ⟨l, e, d, a, r, g, ps⟩ := x
  cases l with
  | some l =>
    have hl := xok_license l
    simp only [X.Ok] at hl
    have hw : X.license.writes l = true := rfl
    simp only [hw, true_and] at hl
    simp only [X.licenseChoiceNorm, LicenseChoice.XPlain, ← hl]
    simp
    grind
  | none =>
    simp only at hd
    simp only [X.licenseChoiceNorm, LicenseChoice.XPlain]
    by_cases he : e = ""
    · simp [he]
    · have hk : (if sanitize (a.getD "") ≠ "" then some (sanitize (a.getD "")) else none) = a ↔
          ∀ b ∈ a, b ≠ "" ∧ XString b := by
        cases a with
        | none => simp
        | some a =>
          by_cases ha : a = ""
          · simp [ha]
          · simp [sanitize_eq, sanitize_eq_empty, ha]
      rw [if_pos he]
      simp only [X.expressionChoice, hk, List.cons.injEq, and_true, LicenseChoice.mk.injEq, true_and, ← hd, sanitize_eq]
      constructor
      · rintro ⟨⟨h1, h2, h3, h4, h5, h6⟩, _⟩
        exact .inr ⟨he, h1, h4, h3, h2, h5.symm, h6.symm⟩
      · rintro (⟨l, _, h⟩ | ⟨_, h1, h4, h3, h2, h5, h6⟩)
        · cases h.1
        · exact ⟨⟨h1, h2, h3, h4, h5.symm, h6.symm⟩, by simp⟩

theorem licenseChoiceNorm_length (x : LicenseChoice) : (X.licenseChoiceNorm x).length ≤ 1 := by
  unfold X.licenseChoiceNorm
  split
  · simp
  · split <;> simp

theorem xok_licenses (ls : List LicenseChoice) : X.Ok X.licenses ls ↔ ls ≠ [] ∧ ∀ l ∈ ls, LicenseChoice.XPlain l := by
  simp only [X.Ok, X.licenses, flatMap_eq_self licenseChoiceNorm_length, ← xok_licenseChoice]
  refine and_congr (by simp) ⟨fun h l hl => ⟨h.1 l hl, h.2 l hl⟩, fun h => ⟨fun l hl => (h l hl).1, fun l hl => (h l hl).2⟩⟩

theorem fok_licenses (n : String) (p : PSlice LicenseChoice) :
    X.FOk (XField.slice n X.licenses) p ↔ p.XEach LicenseChoice.XPlain := by
  rw [fok_slice n X.licenses p _ xok_licenses]
  simp [X.licenses]

instance : XNonEmpty X.evidence := ⟨fun _ => rfl⟩

theorem xok_evidenceIdentities (o : Option EvidenceIdentityChoice) :
    ((match XField.normList true X.evidenceIdentity (X.evidenceIdentities { identity := o }).elems with
        | [] => none
        | is => some ({ identities := .list is } : EvidenceIdentityChoice)) = o ∧
      ∀ a ∈ (X.evidenceIdentities { identity := o }).elems, X.evidenceIdentity.good a) ↔
    (∀ i ∈ o, i.identity = none ∧ i.identities ≠ .nil ∧ i.identities.XEach EvidenceIdentity.XPlain) := by
  cases o with
  | none => simp [X.evidenceIdentities, XField.normList, PSlice.elems]
  | some c =>
    obtain ⟨i, l⟩ := c
    have key : ∀ as : List EvidenceIdentity,
        XField.normList true X.evidenceIdentity as = as ∧ (∀ a ∈ as, X.evidenceIdentity.good a) ↔
          ∀ a ∈ as, a.XPlain := by
      intro as
      rw [normList_eq]
      simp only [eok_of, xok_evidenceIdentity]
    cases l with
    | nil =>
      simp only [X.evidenceIdentities, PSlice.isNil]
      simp
      intro h
      exfalso
      split at h
      · cases h
      · simp at h
    | nilSlice =>
      simp [X.evidenceIdentities, PSlice.isNil, XField.normList, PSlice.elems, PSlice.XEach]
    | list as =>
      have he : (X.evidenceIdentities { identity := some { identity := i, identities := .list as } }).elems = as := rfl
      simp only [he, PSlice.XEach, ← key, Option.mem_some_iff, forall_eq', ne_eq, reduceCtorEq, not_false_eq_true, true_and]
      constructor
      · rintro ⟨h1, h2⟩
        split at h1
        · cases h1
        · rename_i hne
          simp only [Option.some.injEq, EvidenceIdentityChoice.mk.injEq, PSlice.list.injEq] at h1
          refine ⟨h1.1.symm, ?_, h1.2, h2⟩
          intro e
          rw [h1.2] at hne
          exact hne e
      · rintro ⟨rfl, h1, h2, h3⟩
        refine ⟨?_, h3⟩
        rw [h2]
        cases as with
        | nil => exact absurd rfl h1
        | cons a as => rfl

theorem xok_evidence (x : Evidence) : X.Ok X.evidence x ↔ x.XPlain := by
  obtain ⟨i, o, c, l, t⟩ := x
  have h1 := xok_evidenceIdentities i
  have h2 := ofList_normList true X.evidenceOccurrence o
  have h3 := ofList_normList true X.copyright t
  have h4 : XField.ofList (X.licenses.norm l.elems) = l ∧ X.licenses.good l.elems ↔ l.XEach LicenseChoice.XPlain :=
    xeach_flatMap licenseChoiceNorm_length xok_licenseChoice l
  have h5 : (X.callstackNorm c = c ∧ (∀ a ∈ c, X.callstack.good a)) ↔ ∀ a ∈ c, a.frames ≠ .nil ∧ a.XPlain := by
    cases c with
    | none => simp [X.callstackNorm]
    | some c =>
      have h := xok_callstack c
      simp only [X.Ok, show X.callstack.writes c = true from rfl, true_and] at h
      have hn : ∀ p : PSlice CallstackFrame, p.isNil = true ↔ p = .nil := by intro p; cases p <;> simp [PSlice.isNil]
      simp only [X.callstackNorm, hn, ← h]
      simp
      grind
  have h6 : X.evidence.writes ⟨i, o, c, l, t⟩ = true ↔ (⟨i, o, c, l, t⟩ : Evidence) ≠ {} := by
    have hn : ∀ {α : Type} (p : PSlice α), p.isNil = true ↔ p = .nil := by intro _ p; cases p <;> simp [PSlice.isNil]
    simp only [X.evidence, Bool.not_eq_true', ne_eq, Evidence.mk.injEq, ← Bool.not_eq_true, Bool.and_eq_true, hn,
      Option.isNone_iff_eq_none]
    grind
  have h3' : X.copyright.writes = fun _ => true := rfl
  simp only [eok_of, xok_evidenceOccurrence, xok_copyright] at h2 h3
  rw [Evidence.XPlain, ← h6, ← h1, ← h2, ← h3, ← h4, ← h5]
  have hgood : X.evidence.good ⟨i, o, c, l, t⟩ ↔
      (∀ a ∈ (X.evidenceIdentities { identity := i }).elems, X.evidenceIdentity.good a) ∧
      (∀ a ∈ o.elems, X.evidenceOccurrence.good a) ∧ (∀ a ∈ c, X.callstack.good a) ∧ X.licenses.good l.elems ∧
      (∀ a ∈ t.elems, X.copyright.good a) := by
    simp [X.evidence, X.evidenceFields, XFields.good, XField.list, XField.nlist, XField.ptr, XField.slice]
    intros
    exact Iff.rfl
  have hnorm : X.evidence.norm ⟨i, o, c, l, t⟩ = ⟨i, o, c, l, t⟩ ↔
      (match XField.normList true X.evidenceIdentity (X.evidenceIdentities { identity := i }).elems with
        | [] => none
        | is => some ({ identities := .list is } : EvidenceIdentityChoice)) = i ∧
      XField.ofList (XField.normList true X.evidenceOccurrence o.elems) = o ∧ X.callstackNorm c = c ∧
      XField.ofList (X.licenses.norm l.elems) = l ∧
      XField.ofList (XField.normList true X.copyright t.elems) = t := by
    simp only [X.evidence, Evidence.mk.injEq]
    rfl
  rw [X.Ok, hgood, hnorm]
  constructor
  · rintro ⟨hw, ⟨a1, a2, a3, a4, a5⟩, b1, b2, b3, b4, b5⟩
    exact ⟨hw, ⟨a1, b1⟩, ⟨a2, b2⟩, ⟨a3, b3⟩, ⟨a4, b4⟩, a5, b5⟩
  · rintro ⟨hw, ⟨a1, b1⟩, ⟨a2, b2⟩, ⟨a3, b3⟩, ⟨a4, b4⟩, a5, b5⟩
    exact ⟨hw, ⟨a1, a2, a3, a4, a5⟩, b1, b2, b3, b4, b5⟩

instance : XNonEmpty X.externalReference := ⟨fun _ => rfl⟩
instance : XAlways X.externalReference := ⟨fun _ => rfl⟩

theorem xok_externalReference (x : ExternalReference) : X.Ok X.externalReference x ↔ x.XPlain := by
  show X.Ok X.externalReference x ↔ _
  rw [X.externalReference, xok_struct X.externalReferenceFields _ _ (fun _ => rfl) (fun _ => rfl)]
  simp only [X.externalReferenceFields, xokF_nil, xokF_skip, xokF_attr, xokF_attrPtr, xokF_chardata, xokF_elem, ExternalReference.toP, ExternalReference.XPlain, fok_plain_simple, fok_plain_ref, fok_plain_struct, fok_ptr, fok_list, fok_nlist, fok_dataflow, fok_evidenceData, aok_string, aok_ref, aok_int, aok_bool, aok_f32, xok_text, tok_string, tok_ref, tok_int, tok_bool, tok_f32, tok_f64, xok_ref, eok_string, eok_ref, eok_int, eok_of, xok_hash, xok_property, and_true, true_and, implies_true]

instance : XNonEmpty X.mlModelCO2Measure := ⟨fun _ => rfl⟩
instance : XAlways X.mlModelCO2Measure := ⟨fun _ => rfl⟩

theorem xok_mlModelCO2Measure (x : MLModelCO2Measure) : X.Ok X.mlModelCO2Measure x ↔ x.XPlain := by
  show X.Ok X.mlModelCO2Measure x ↔ _
  rw [X.mlModelCO2Measure, xok_struct X.mlModelCO2MeasureFields _ _ (fun _ => rfl) (fun _ => rfl)]
  simp only [X.mlModelCO2MeasureFields, xokF_nil, xokF_skip, xokF_attr, xokF_attrPtr, xokF_chardata, xokF_elem, MLModelCO2Measure.toP, MLModelCO2Measure.XPlain, fok_plain_simple, fok_plain_ref, fok_plain_struct, fok_ptr, fok_list, fok_nlist, fok_dataflow, fok_evidenceData, aok_string, aok_ref, aok_int, aok_bool, aok_f32, xok_text, tok_string, tok_ref, tok_int, tok_bool, tok_f32, tok_f64, xok_ref, eok_string, eok_ref, eok_int, eok_of, and_true, true_and, implies_true]

instance : XNonEmpty X.mlModelEnergyMeasure := ⟨fun _ => rfl⟩
instance : XAlways X.mlModelEnergyMeasure := ⟨fun _ => rfl⟩

theorem xok_mlModelEnergyMeasure (x : MLModelEnergyMeasure) : X.Ok X.mlModelEnergyMeasure x ↔ x.XPlain := by
  show X.Ok X.mlModelEnergyMeasure x ↔ _
  rw [X.mlModelEnergyMeasure, xok_struct X.mlModelEnergyMeasureFields _ _ (fun _ => rfl) (fun _ => rfl)]
  simp only [X.mlModelEnergyMeasureFields, xokF_nil, xokF_skip, xokF_attr, xokF_attrPtr, xokF_chardata, xokF_elem, MLModelEnergyMeasure.toP, MLModelEnergyMeasure.XPlain, fok_plain_simple, fok_plain_ref, fok_plain_struct, fok_ptr, fok_list, fok_nlist, fok_dataflow, fok_evidenceData, aok_string, aok_ref, aok_int, aok_bool, aok_f32, xok_text, tok_string, tok_ref, tok_int, tok_bool, tok_f32, tok_f64, xok_ref, eok_string, eok_ref, eok_int, eok_of, and_true, true_and, implies_true]

instance : XNonEmpty X.mlModelEnergyProvider := ⟨fun _ => rfl⟩
instance : XAlways X.mlModelEnergyProvider := ⟨fun _ => rfl⟩

theorem xok_mlModelEnergyProvider (x : MLModelEnergyProvider) : X.Ok X.mlModelEnergyProvider x ↔ x.XPlain := by
  show X.Ok X.mlModelEnergyProvider x ↔ _
  rw [X.mlModelEnergyProvider, xok_struct X.mlModelEnergyProviderFields _ _ (fun _ => rfl) (fun _ => rfl)]
  simp only [X.mlModelEnergyProviderFields, xokF_nil, xokF_skip, xokF_attr, xokF_attrPtr, xokF_chardata, xokF_elem, MLModelEnergyProvider.toP, MLModelEnergyProvider.XPlain, fok_plain_simple, fok_plain_ref, fok_plain_struct, fok_ptr, fok_list, fok_nlist, fok_dataflow, fok_evidenceData, aok_string, aok_ref, aok_int, aok_bool, aok_f32, xok_text, tok_string, tok_ref, tok_int, tok_bool, tok_f32, tok_f64, xok_ref, eok_string, eok_ref, eok_int, eok_of, xok_externalReference, xok_mlModelEnergyMeasure, xok_organizationalEntity, and_true, true_and, implies_true]

instance : XNonEmpty X.mlModelEnergyConsumption := ⟨fun _ => rfl⟩
instance : XAlways X.mlModelEnergyConsumption := ⟨fun _ => rfl⟩

theorem xok_mlModelEnergyConsumption (x : MLModelEnergyConsumption) : X.Ok X.mlModelEnergyConsumption x ↔ x.XPlain := by
  show X.Ok X.mlModelEnergyConsumption x ↔ _
  rw [X.mlModelEnergyConsumption, xok_struct X.mlModelEnergyConsumptionFields _ _ (fun _ => rfl) (fun _ => rfl)]
  simp only [X.mlModelEnergyConsumptionFields, xokF_nil, xokF_skip, xokF_attr, xokF_attrPtr, xokF_chardata, xokF_elem, MLModelEnergyConsumption.toP, MLModelEnergyConsumption.XPlain, fok_plain_simple, fok_plain_ref, fok_plain_struct, fok_ptr, fok_list, fok_nlist, fok_dataflow, fok_evidenceData, aok_string, aok_ref, aok_int, aok_bool, aok_f32, xok_text, tok_string, tok_ref, tok_int, tok_bool, tok_f32, tok_f64, xok_ref, eok_string, eok_ref, eok_int, eok_of, xok_mlModelCO2Measure, xok_mlModelEnergyMeasure, xok_mlModelEnergyProvider, xok_property, and_true, true_and, implies_true]

instance : XNonEmpty X.mlModelCardEnvironmentalConsiderations := ⟨fun _ => rfl⟩
instance : XAlways X.mlModelCardEnvironmentalConsiderations := ⟨fun _ => rfl⟩

theorem xok_mlModelCardEnvironmentalConsiderations (x : MLModelCardEnvironmentalConsiderations) : X.Ok X.mlModelCardEnvironmentalConsiderations x ↔ x.XPlain := by
  show X.Ok X.mlModelCardEnvironmentalConsiderations x ↔ _
  rw [X.mlModelCardEnvironmentalConsiderations, xok_struct X.mlModelCardEnvironmentalConsiderationsFields _ _ (fun _ => rfl) (fun _ => rfl)]
  simp only [X.mlModelCardEnvironmentalConsiderationsFields, xokF_nil, xokF_skip, xokF_attr, xokF_attrPtr, xokF_chardata, xokF_elem, MLModelCardEnvironmentalConsiderations.toP, MLModelCardEnvironmentalConsiderations.XPlain, fok_plain_simple, fok_plain_ref, fok_plain_struct, fok_ptr, fok_list, fok_nlist, fok_dataflow, fok_evidenceData, aok_string, aok_ref, aok_int, aok_bool, aok_f32, xok_text, tok_string, tok_ref, tok_int, tok_bool, tok_f32, tok_f64, xok_ref, eok_string, eok_ref, eok_int, eok_of, xok_mlModelEnergyConsumption, xok_property, and_true, true_and, implies_true]

instance : XNonEmpty X.mlModelCardEthicalConsideration := ⟨fun _ => rfl⟩
instance : XAlways X.mlModelCardEthicalConsideration := ⟨fun _ => rfl⟩

theorem xok_mlModelCardEthicalConsideration (x : MLModelCardEthicalConsideration) : X.Ok X.mlModelCardEthicalConsideration x ↔ x.XPlain := by
  show X.Ok X.mlModelCardEthicalConsideration x ↔ _
  rw [X.mlModelCardEthicalConsideration, xok_struct X.mlModelCardEthicalConsiderationFields _ _ (fun _ => rfl) (fun _ => rfl)]
  simp only [X.mlModelCardEthicalConsiderationFields, xokF_nil, xokF_skip, xokF_attr, xokF_attrPtr, xokF_chardata, xokF_elem, MLModelCardEthicalConsideration.toP, MLModelCardEthicalConsideration.XPlain, fok_plain_simple, fok_plain_ref, fok_plain_struct, fok_ptr, fok_list, fok_nlist, fok_dataflow, fok_evidenceData, aok_string, aok_ref, aok_int, aok_bool, aok_f32, xok_text, tok_string, tok_ref, tok_int, tok_bool, tok_f32, tok_f64, xok_ref, eok_string, eok_ref, eok_int, eok_of, and_true, true_and, implies_true]

instance : XNonEmpty X.mlModelCardFairnessAssessment := ⟨fun _ => rfl⟩
instance : XAlways X.mlModelCardFairnessAssessment := ⟨fun _ => rfl⟩

theorem xok_mlModelCardFairnessAssessment (x : MLModelCardFairnessAssessment) : X.Ok X.mlModelCardFairnessAssessment x ↔ x.XPlain := by
  show X.Ok X.mlModelCardFairnessAssessment x ↔ _
  rw [X.mlModelCardFairnessAssessment, xok_struct X.mlModelCardFairnessAssessmentFields _ _ (fun _ => rfl) (fun _ => rfl)]
  simp only [X.mlModelCardFairnessAssessmentFields, xokF_nil, xokF_skip, xokF_attr, xokF_attrPtr, xokF_chardata, xokF_elem, MLModelCardFairnessAssessment.toP, MLModelCardFairnessAssessment.XPlain, fok_plain_simple, fok_plain_ref, fok_plain_struct, fok_ptr, fok_list, fok_nlist, fok_dataflow, fok_evidenceData, aok_string, aok_ref, aok_int, aok_bool, aok_f32, xok_text, tok_string, tok_ref, tok_int, tok_bool, tok_f32, tok_f64, xok_ref, eok_string, eok_ref, eok_int, eok_of, and_true, true_and, implies_true]

instance : XNonEmpty X.mlModelCardConsiderations := ⟨fun _ => rfl⟩
instance : XAlways X.mlModelCardConsiderations := ⟨fun _ => rfl⟩

theorem xok_mlModelCardConsiderations (x : MLModelCardConsiderations) : X.Ok X.mlModelCardConsiderations x ↔ x.XPlain := by
  show X.Ok X.mlModelCardConsiderations x ↔ _
  rw [X.mlModelCardConsiderations, xok_struct X.mlModelCardConsiderationsFields _ _ (fun _ => rfl) (fun _ => rfl)]
  simp only [X.mlModelCardConsiderationsFields, xokF_nil, xokF_skip, xokF_attr, xokF_attrPtr, xokF_chardata, xokF_elem, MLModelCardConsiderations.toP, MLModelCardConsiderations.XPlain, fok_plain_simple, fok_plain_ref, fok_plain_struct, fok_ptr, fok_list, fok_nlist, fok_dataflow, fok_evidenceData, aok_string, aok_ref, aok_int, aok_bool, aok_f32, xok_text, tok_string, tok_ref, tok_int, tok_bool, tok_f32, tok_f64, xok_ref, eok_string, eok_ref, eok_int, eok_of, xok_mlModelCardEnvironmentalConsiderations, xok_mlModelCardEthicalConsideration, xok_mlModelCardFairnessAssessment, and_true, true_and, implies_true]

instance : XNonEmpty X.mlDatasetChoice := ⟨fun _ => rfl⟩

theorem xok_mlDatasetChoice (x : MLDatasetChoice) : X.Ok X.mlDatasetChoice x ↔ x.XPlain := by
  obtain ⟨r, d⟩ := x
  by_cases hr : r = ""
  · cases d with
    | none => simp [X.Ok, X.mlDatasetChoice, MLDatasetChoice.XPlain, hr]
    | some d =>
      have h := xok_componentData d
      simp only [X.Ok] at h
      have hw : X.componentData.writes d = true := rfl
      simp only [hw, true_and] at h
      by_cases hz : (X.componentData.norm d).isZero = true
      · have hz' := (ComponentData.isZero_iff _).1 hz
        simp only [X.Ok, X.mlDatasetChoice, MLDatasetChoice.XPlain, hr, hz, ← h]
        simp
        intro hp
        rw [← (h.2 hp).1]; exact hz'
      · have hne : X.componentData.norm d = d → d ≠ {} := by
          intro e e'
          apply hz
          rw [e, e']; rfl
        simp only [X.Ok, X.mlDatasetChoice, MLDatasetChoice.XPlain, hr, hz, ← h]
        simp
        grind
  · cases d <;> simp [X.Ok, X.mlDatasetChoice, MLDatasetChoice.XPlain, hr, sanitize_eq]

instance : XNonEmpty X.mlInputOutputParameters := ⟨fun _ => rfl⟩
instance : XAlways X.mlInputOutputParameters := ⟨fun _ => rfl⟩

theorem xok_mlInputOutputParameters (x : MLInputOutputParameters) : X.Ok X.mlInputOutputParameters x ↔ x.XPlain := by
  show X.Ok X.mlInputOutputParameters x ↔ _
  rw [X.mlInputOutputParameters, xok_struct X.mlInputOutputParametersFields _ _ (fun _ => rfl) (fun _ => rfl)]
  simp only [X.mlInputOutputParametersFields, xokF_nil, xokF_skip, xokF_attr, xokF_attrPtr, xokF_chardata, xokF_elem, MLInputOutputParameters.toP, MLInputOutputParameters.XPlain, fok_plain_simple, fok_plain_ref, fok_plain_struct, fok_ptr, fok_list, fok_nlist, fok_dataflow, fok_evidenceData, aok_string, aok_ref, aok_int, aok_bool, aok_f32, xok_text, tok_string, tok_ref, tok_int, tok_bool, tok_f32, tok_f64, xok_ref, eok_string, eok_ref, eok_int, eok_of, and_true, true_and, implies_true]

instance : XNonEmpty X.mlModelParametersApproach := ⟨fun _ => rfl⟩
instance : XAlways X.mlModelParametersApproach := ⟨fun _ => rfl⟩

theorem xok_mlModelParametersApproach (x : MLModelParametersApproach) : X.Ok X.mlModelParametersApproach x ↔ x.XPlain := by
  show X.Ok X.mlModelParametersApproach x ↔ _
  rw [X.mlModelParametersApproach, xok_struct X.mlModelParametersApproachFields _ _ (fun _ => rfl) (fun _ => rfl)]
  simp only [X.mlModelParametersApproachFields, xokF_nil, xokF_skip, xokF_attr, xokF_attrPtr, xokF_chardata, xokF_elem, MLModelParametersApproach.toP, MLModelParametersApproach.XPlain, fok_plain_simple, fok_plain_ref, fok_plain_struct, fok_ptr, fok_list, fok_nlist, fok_dataflow, fok_evidenceData, aok_string, aok_ref, aok_int, aok_bool, aok_f32, xok_text, tok_string, tok_ref, tok_int, tok_bool, tok_f32, tok_f64, xok_ref, eok_string, eok_ref, eok_int, eok_of, and_true, true_and, implies_true]

instance : XNonEmpty X.mlModelParameters := ⟨fun _ => rfl⟩
instance : XAlways X.mlModelParameters := ⟨fun _ => rfl⟩

theorem xok_mlModelParameters (x : MLModelParameters) : X.Ok X.mlModelParameters x ↔ x.XPlain := by
  show X.Ok X.mlModelParameters x ↔ _
  rw [X.mlModelParameters, xok_struct X.mlModelParametersFields _ _ (fun _ => rfl) (fun _ => rfl)]
  simp only [X.mlModelParametersFields, xokF_nil, xokF_skip, xokF_attr, xokF_attrPtr, xokF_chardata, xokF_elem, MLModelParameters.toP, MLModelParameters.XPlain, fok_plain_simple, fok_plain_ref, fok_plain_struct, fok_ptr, fok_list, fok_nlist, fok_dataflow, fok_evidenceData, aok_string, aok_ref, aok_int, aok_bool, aok_f32, xok_text, tok_string, tok_ref, tok_int, tok_bool, tok_f32, tok_f64, xok_ref, eok_string, eok_ref, eok_int, eok_of, xok_mlDatasetChoice, xok_mlInputOutputParameters, xok_mlModelParametersApproach, and_true, true_and, implies_true]

instance : XNonEmpty X.mlPerformanceMetricConfidenceInterval := ⟨fun _ => rfl⟩
instance : XAlways X.mlPerformanceMetricConfidenceInterval := ⟨fun _ => rfl⟩

theorem xok_mlPerformanceMetricConfidenceInterval (x : MLPerformanceMetricConfidenceInterval) : X.Ok X.mlPerformanceMetricConfidenceInterval x ↔ x.XPlain := by
  show X.Ok X.mlPerformanceMetricConfidenceInterval x ↔ _
  rw [X.mlPerformanceMetricConfidenceInterval, xok_struct X.mlPerformanceMetricConfidenceIntervalFields _ _ (fun _ => rfl) (fun _ => rfl)]
  simp only [X.mlPerformanceMetricConfidenceIntervalFields, xokF_nil, xokF_skip, xokF_attr, xokF_attrPtr, xokF_chardata, xokF_elem, MLPerformanceMetricConfidenceInterval.toP, MLPerformanceMetricConfidenceInterval.XPlain, fok_plain_simple, fok_plain_ref, fok_plain_struct, fok_ptr, fok_list, fok_nlist, fok_dataflow, fok_evidenceData, aok_string, aok_ref, aok_int, aok_bool, aok_f32, xok_text, tok_string, tok_ref, tok_int, tok_bool, tok_f32, tok_f64, xok_ref, eok_string, eok_ref, eok_int, eok_of, and_true, true_and, implies_true]

instance : XNonEmpty X.mlPerformanceMetric := ⟨fun _ => rfl⟩
instance : XAlways X.mlPerformanceMetric := ⟨fun _ => rfl⟩

theorem xok_mlPerformanceMetric (x : MLPerformanceMetric) : X.Ok X.mlPerformanceMetric x ↔ x.XPlain := by
  show X.Ok X.mlPerformanceMetric x ↔ _
  rw [X.mlPerformanceMetric, xok_struct X.mlPerformanceMetricFields _ _ (fun _ => rfl) (fun _ => rfl)]
  simp only [X.mlPerformanceMetricFields, xokF_nil, xokF_skip, xokF_attr, xokF_attrPtr, xokF_chardata, xokF_elem, MLPerformanceMetric.toP, MLPerformanceMetric.XPlain, fok_plain_simple, fok_plain_ref, fok_plain_struct, fok_ptr, fok_list, fok_nlist, fok_dataflow, fok_evidenceData, aok_string, aok_ref, aok_int, aok_bool, aok_f32, xok_text, tok_string, tok_ref, tok_int, tok_bool, tok_f32, tok_f64, xok_ref, eok_string, eok_ref, eok_int, eok_of, xok_mlPerformanceMetricConfidenceInterval, and_true, true_and, implies_true]

instance : XNonEmpty X.mlQuantitativeAnalysis := ⟨fun _ => rfl⟩
instance : XAlways X.mlQuantitativeAnalysis := ⟨fun _ => rfl⟩

theorem xok_mlQuantitativeAnalysis (x : MLQuantitativeAnalysis) : X.Ok X.mlQuantitativeAnalysis x ↔ x.XPlain := by
  show X.Ok X.mlQuantitativeAnalysis x ↔ _
  rw [X.mlQuantitativeAnalysis, xok_struct X.mlQuantitativeAnalysisFields _ _ (fun _ => rfl) (fun _ => rfl)]
  simp only [X.mlQuantitativeAnalysisFields, xokF_nil, xokF_skip, xokF_attr, xokF_attrPtr, xokF_chardata, xokF_elem, MLQuantitativeAnalysis.toP, MLQuantitativeAnalysis.XPlain, fok_plain_simple, fok_plain_ref, fok_plain_struct, fok_ptr, fok_list, fok_nlist, fok_dataflow, fok_evidenceData, aok_string, aok_ref, aok_int, aok_bool, aok_f32, xok_text, tok_string, tok_ref, tok_int, tok_bool, tok_f32, tok_f64, xok_ref, eok_string, eok_ref, eok_int, eok_of, xok_componentDataGraphics, xok_mlPerformanceMetric, and_true, true_and, implies_true]

instance : XNonEmpty X.mlModelCard := ⟨fun _ => rfl⟩
instance : XAlways X.mlModelCard := ⟨fun _ => rfl⟩

theorem xok_mlModelCard (x : MLModelCard) : X.Ok X.mlModelCard x ↔ x.XPlain := by
  show X.Ok X.mlModelCard x ↔ _
  rw [X.mlModelCard, xok_struct X.mlModelCardFields _ _ (fun _ => rfl) (fun _ => rfl)]
  simp only [X.mlModelCardFields, xokF_nil, xokF_skip, xokF_attr, xokF_attrPtr, xokF_chardata, xokF_elem, MLModelCard.toP, MLModelCard.XPlain, fok_plain_simple, fok_plain_ref, fok_plain_struct, fok_ptr, fok_list, fok_nlist, fok_dataflow, fok_evidenceData, aok_string, aok_ref, aok_int, aok_bool, aok_f32, xok_text, tok_string, tok_ref, tok_int, tok_bool, tok_f32, tok_f64, xok_ref, eok_string, eok_ref, eok_int, eok_of, xok_mlModelCardConsiderations, xok_mlModelParameters, xok_mlQuantitativeAnalysis, and_true, true_and, implies_true]

instance : XNonEmpty X.identifiableAction := ⟨fun _ => rfl⟩
instance : XAlways X.identifiableAction := ⟨fun _ => rfl⟩

theorem xok_identifiableAction (x : IdentifiableAction) : X.Ok X.identifiableAction x ↔ x.XPlain := by
  show X.Ok X.identifiableAction x ↔ _
  rw [X.identifiableAction, xok_struct X.identifiableActionFields _ _ (fun _ => rfl) (fun _ => rfl)]
  simp only [X.identifiableActionFields, xokF_nil, xokF_skip, xokF_attr, xokF_attrPtr, xokF_chardata, xokF_elem, IdentifiableAction.toP, IdentifiableAction.XPlain, fok_plain_simple, fok_plain_ref, fok_plain_struct, fok_ptr, fok_list, fok_nlist, fok_dataflow, fok_evidenceData, aok_string, aok_ref, aok_int, aok_bool, aok_f32, xok_text, tok_string, tok_ref, tok_int, tok_bool, tok_f32, tok_f64, xok_ref, eok_string, eok_ref, eok_int, eok_of, and_true, true_and, implies_true]

instance : XNonEmpty X.commit := ⟨fun _ => rfl⟩
instance : XAlways X.commit := ⟨fun _ => rfl⟩

theorem xok_commit (x : Commit) : X.Ok X.commit x ↔ x.XPlain := by
  show X.Ok X.commit x ↔ _
  rw [X.commit, xok_struct X.commitFields _ _ (fun _ => rfl) (fun _ => rfl)]
  simp only [X.commitFields, xokF_nil, xokF_skip, xokF_attr, xokF_attrPtr, xokF_chardata, xokF_elem, Commit.toP, Commit.XPlain, fok_plain_simple, fok_plain_ref, fok_plain_struct, fok_ptr, fok_list, fok_nlist, fok_dataflow, fok_evidenceData, aok_string, aok_ref, aok_int, aok_bool, aok_f32, xok_text, tok_string, tok_ref, tok_int, tok_bool, tok_f32, tok_f64, xok_ref, eok_string, eok_ref, eok_int, eok_of, xok_identifiableAction, and_true, true_and, implies_true]

instance : XNonEmpty X.diff := ⟨fun _ => rfl⟩
instance : XAlways X.diff := ⟨fun _ => rfl⟩

theorem xok_diff (x : Diff) : X.Ok X.diff x ↔ x.XPlain := by
  show X.Ok X.diff x ↔ _
  rw [X.diff, xok_struct X.diffFields _ _ (fun _ => rfl) (fun _ => rfl)]
  simp only [X.diffFields, xokF_nil, xokF_skip, xokF_attr, xokF_attrPtr, xokF_chardata, xokF_elem, Diff.toP, Diff.XPlain, fok_plain_simple, fok_plain_ref, fok_plain_struct, fok_ptr, fok_list, fok_nlist, fok_dataflow, fok_evidenceData, aok_string, aok_ref, aok_int, aok_bool, aok_f32, xok_text, tok_string, tok_ref, tok_int, tok_bool, tok_f32, tok_f64, xok_ref, eok_string, eok_ref, eok_int, eok_of, xok_attachedText, and_true, true_and, implies_true]

instance : XNonEmpty X.source := ⟨fun _ => rfl⟩
instance : XAlways X.source := ⟨fun _ => rfl⟩

theorem xok_source (x : Source) : X.Ok X.source x ↔ x.XPlain := by
  show X.Ok X.source x ↔ _
  rw [X.source, xok_struct X.sourceFields _ _ (fun _ => rfl) (fun _ => rfl)]
  simp only [X.sourceFields, xokF_nil, xokF_skip, xokF_attr, xokF_attrPtr, xokF_chardata, xokF_elem, Source.toP, Source.XPlain, fok_plain_simple, fok_plain_ref, fok_plain_struct, fok_ptr, fok_list, fok_nlist, fok_dataflow, fok_evidenceData, aok_string, aok_ref, aok_int, aok_bool, aok_f32, xok_text, tok_string, tok_ref, tok_int, tok_bool, tok_f32, tok_f64, xok_ref, eok_string, eok_ref, eok_int, eok_of, and_true, true_and, implies_true]

instance : XNonEmpty X.issue := ⟨fun _ => rfl⟩
instance : XAlways X.issue := ⟨fun _ => rfl⟩

theorem xok_issue (x : Issue) : X.Ok X.issue x ↔ x.XPlain := by
  show X.Ok X.issue x ↔ _
  rw [X.issue, xok_struct X.issueFields _ _ (fun _ => rfl) (fun _ => rfl)]
  simp only [X.issueFields, xokF_nil, xokF_skip, xokF_attr, xokF_attrPtr, xokF_chardata, xokF_elem, Issue.toP, Issue.XPlain, fok_plain_simple, fok_plain_ref, fok_plain_struct, fok_ptr, fok_list, fok_nlist, fok_dataflow, fok_evidenceData, aok_string, aok_ref, aok_int, aok_bool, aok_f32, xok_text, tok_string, tok_ref, tok_int, tok_bool, tok_f32, tok_f64, xok_ref, eok_string, eok_ref, eok_int, eok_of, xok_source, and_true, true_and, implies_true]

instance : XNonEmpty X.patch := ⟨fun _ => rfl⟩
instance : XAlways X.patch := ⟨fun _ => rfl⟩

theorem xok_patch (x : Patch) : X.Ok X.patch x ↔ x.XPlain := by
  show X.Ok X.patch x ↔ _
  rw [X.patch, xok_struct X.patchFields _ _ (fun _ => rfl) (fun _ => rfl)]
  simp only [X.patchFields, xokF_nil, xokF_skip, xokF_attr, xokF_attrPtr, xokF_chardata, xokF_elem, Patch.toP, Patch.XPlain, fok_plain_simple, fok_plain_ref, fok_plain_struct, fok_ptr, fok_list, fok_nlist, fok_dataflow, fok_evidenceData, aok_string, aok_ref, aok_int, aok_bool, aok_f32, xok_text, tok_string, tok_ref, tok_int, tok_bool, tok_f32, tok_f64, xok_ref, eok_string, eok_ref, eok_int, eok_of, xok_diff, xok_issue, and_true, true_and, implies_true]

theorem xok_pedigreeWith (C : XCodec Component) [XNonEmpty C] [XNamed C] (x : Pedigree Component)
    (h1 : (x.ancestors.XEach fun c => X.Ok C c) ↔ XPlainComponents x.ancestors)
    (h2 : (x.descendants.XEach fun c => X.Ok C c) ↔ XPlainComponents x.descendants)
    (h3 : (x.variants.XEach fun c => X.Ok C c) ↔ XPlainComponents x.variants) :
    X.Ok (X.pedigree C) x ↔ XPlainPedigree x := by
  rw [X.pedigree, xok_struct (X.pedigreeFields C) _ _ (fun _ => rfl) (fun _ => rfl)]
  simp only [X.pedigreeFields, xokF_nil, xokF_skip, xokF_attr, xokF_attrPtr, xokF_chardata, xokF_elem, Pedigree.toP, fok_plain_simple, fok_plain_ref, fok_plain_struct, fok_ptr, fok_list, fok_nlist, fok_dataflow, fok_evidenceData, aok_string, aok_ref, aok_int, aok_bool, aok_f32, xok_text, tok_string, tok_ref, tok_int, tok_bool, tok_f32, tok_f64, xok_ref, eok_string, eok_ref, eok_int, eok_of, h1, h2, h3, xok_commit, xok_patch, and_true, true_and, implies_true]
  cases x; exact Iff.rfl

instance : XNonEmpty X.note := ⟨fun _ => rfl⟩
instance : XAlways X.note := ⟨fun _ => rfl⟩

theorem xok_note (x : Note) : X.Ok X.note x ↔ x.XPlain := by
  show X.Ok X.note x ↔ _
  rw [X.note, xok_struct X.noteFields _ _ (fun _ => rfl) (fun _ => rfl)]
  simp only [X.noteFields, xokF_nil, xokF_skip, xokF_attr, xokF_attrPtr, xokF_chardata, xokF_elem, Note.toP, Note.XPlain, fok_plain_simple, fok_plain_ref, fok_plain_struct, fok_ptr, fok_list, fok_nlist, fok_dataflow, fok_evidenceData, aok_string, aok_ref, aok_int, aok_bool, aok_f32, xok_text, tok_string, tok_ref, tok_int, tok_bool, tok_f32, tok_f64, xok_ref, eok_string, eok_ref, eok_int, eok_of, xok_attachedText, and_true, true_and, implies_true]

instance : XNonEmpty X.releaseNotes := ⟨fun _ => rfl⟩
instance : XAlways X.releaseNotes := ⟨fun _ => rfl⟩

theorem xok_releaseNotes (x : ReleaseNotes) : X.Ok X.releaseNotes x ↔ x.XPlain := by
  show X.Ok X.releaseNotes x ↔ _
  rw [X.releaseNotes, xok_struct X.releaseNotesFields _ _ (fun _ => rfl) (fun _ => rfl)]
  simp only [X.releaseNotesFields, xokF_nil, xokF_skip, xokF_attr, xokF_attrPtr, xokF_chardata, xokF_elem, ReleaseNotes.toP, ReleaseNotes.XPlain, fok_plain_simple, fok_plain_ref, fok_plain_struct, fok_ptr, fok_list, fok_nlist, fok_dataflow, fok_evidenceData, aok_string, aok_ref, aok_int, aok_bool, aok_f32, xok_text, tok_string, tok_ref, tok_int, tok_bool, tok_f32, tok_f64, xok_ref, eok_string, eok_ref, eok_int, eok_of, xok_issue, xok_note, xok_property, and_true, true_and, implies_true]

instance : XNonEmpty X.swid := ⟨fun _ => rfl⟩
instance : XAlways X.swid := ⟨fun _ => rfl⟩

theorem xok_swid (x : SWID) : X.Ok X.swid x ↔ x.XPlain := by
  show X.Ok X.swid x ↔ _
  rw [X.swid, xok_struct X.swidFields _ _ (fun _ => rfl) (fun _ => rfl)]
  simp only [X.swidFields, xokF_nil, xokF_skip, xokF_attr, xokF_attrPtr, xokF_chardata, xokF_elem, SWID.toP, SWID.XPlain, fok_plain_simple, fok_plain_ref, fok_plain_struct, fok_ptr, fok_list, fok_nlist, fok_dataflow, fok_evidenceData, aok_string, aok_ref, aok_int, aok_bool, aok_f32, xok_text, tok_string, tok_ref, tok_int, tok_bool, tok_f32, tok_f64, xok_ref, eok_string, eok_ref, eok_int, eok_of, xok_attachedText, and_true, true_and, implies_true]

instance : XNonEmpty X.asserterChoice := ⟨fun _ => rfl⟩

theorem xok_asserterChoice (x : AsserterChoice) : X.Ok X.asserterChoice x ↔ x.XPlain := by
  obtain ⟨o, i, r⟩ := x
  cases o with
  | some o =>
    have h := xok_organizationalEntity o
    simp only [X.Ok, show X.organizationalEntity.writes o = true from rfl, true_and] at h
    cases i <;> cases r <;> simp [X.Ok, X.asserterChoice, AsserterChoice.XPlain, ← h] <;> grind
  | none =>
    cases i with
    | some i =>
      have h := xok_organizationalContact i
      simp only [X.Ok, show X.organizationalContact.writes i = true from rfl, true_and] at h
      cases r <;> simp [X.Ok, X.asserterChoice, AsserterChoice.XPlain, ← h] <;> grind
    | none =>
      cases r with
      | none => simp [X.Ok, X.asserterChoice, AsserterChoice.XPlain]
      | some r =>
        have h := xok_ref r
        simp only [X.Ok, show X.bomReference.writes r = true from rfl, true_and] at h
        have hg : X.bomReference.good r := by simp [X.bomReference, X.fresh, XCodec.struct, X.bomReferenceFields, XFields.good, XText.string]
        simp only [hg, and_true] at h
        simp [X.Ok, X.asserterChoice, AsserterChoice.XPlain, ← h]

instance : XNonEmpty X.patentAssertion := ⟨fun _ => rfl⟩
instance : XAlways X.patentAssertion := ⟨fun _ => rfl⟩

theorem xok_patentAssertion (x : PatentAssertion) : X.Ok X.patentAssertion x ↔ x.XPlain := by
  show X.Ok X.patentAssertion x ↔ _
  rw [X.patentAssertion, xok_struct X.patentAssertionFields _ _ (fun _ => rfl) (fun _ => rfl)]
  simp only [X.patentAssertionFields, xokF_nil, xokF_skip, xokF_attr, xokF_attrPtr, xokF_chardata, xokF_elem, PatentAssertion.toP, PatentAssertion.XPlain, fok_plain_simple, fok_plain_ref, fok_plain_struct, fok_ptr, fok_list, fok_nlist, fok_dataflow, fok_evidenceData, aok_string, aok_ref, aok_int, aok_bool, aok_f32, xok_text, tok_string, tok_ref, tok_int, tok_bool, tok_f32, tok_f64, xok_ref, eok_string, eok_ref, eok_int, eok_of, xok_asserterChoice, and_true, true_and, implies_true]

theorem xplainComponentList_iff (xs : List Component) : XPlainComponentList xs ↔ ∀ c ∈ xs, c.XPlain := by
  induction xs with
  | nil => simp [XPlainComponentList]
  | cons x xs ih => simp [XPlainComponentList, ih]

theorem xplainComponents_iff (p : PSlice Component) : XPlainComponents p ↔ p.XEach Component.XPlain := by
  cases p <;> simp [XPlainComponents, PSlice.XEach, xplainComponentList_iff]

theorem xok_componentWith (C : XCodec Component) [XNonEmpty C] [XNamed C] (x : Component)
    (h1 : (x.components.XEach fun c => X.Ok C c) ↔ XPlainComponents x.components)
    (h2 : ∀ p ∈ x.pedigree, (X.Ok (X.pedigree C) p ↔ XPlainPedigree p)) :
    X.Ok (X.componentWith C) x ↔ x.XPlain := by
  have h3 : (∀ p ∈ x.pedigree, X.Ok (X.pedigree C) p) ↔ XPlainPedigreeOpt x.pedigree := by
    cases hp : x.pedigree with
    | none => simp [XPlainPedigreeOpt]
    | some p => simpa [XPlainPedigreeOpt] using h2 p hp
  rw [X.componentWith, xok_struct (X.componentFields C) _ _ (fun c => by cases c; rfl) (fun _ => rfl)]
  simp only [X.componentFields, xokF_nil, xokF_skip, xokF_attr, xokF_attrPtr, xokF_chardata, xokF_elem, Component.toP, fok_plain_simple, fok_plain_ref, fok_plain_struct, fok_ptr, fok_list, fok_nlist, fok_dataflow, fok_evidenceData, aok_string, aok_ref, aok_int, aok_bool, aok_f32, xok_text, tok_string, tok_ref, tok_int, tok_bool, tok_f32, tok_f64, xok_ref, eok_string, eok_ref, eok_int, eok_of, fok_licenses, h1, h3, fok_licenses, xok_componentData, xok_cryptoProperties, xok_evidence, xok_externalReference, xok_hash, xok_mlModelCard, xok_organizationalContact, xok_organizationalEntity, xok_patentAssertion, xok_property, xok_releaseNotes, xok_swid, and_true, true_and, implies_true]
  cases x; exact Iff.rfl

instance : XNonEmpty X.component := ⟨fun _ => rfl⟩
instance : XAlways X.component := ⟨fun _ => rfl⟩

theorem xok_component (x : Component) : X.Ok X.component x ↔ x.XPlain := by
  suffices H : ∀ n (x : Component), x.height ≤ n → (X.Ok X.component x ↔ x.XPlain) from
    H x.height x (Nat.le_refl _)
  intro n
  induction n with
  | zero => intro x h; rw [Component.height_eq] at h; omega
  | succ n ih =>
    intro x h
    rw [(xcomponent_sameAt_self x).ok]
    rw [Component.height_eq] at h
    have hm : max (heightComponents x.components) (heightPedigreeOpt x.pedigree) ≤ n := by omega
    rw [Nat.max_le] at hm
    have hl : ∀ p : PSlice Component, heightComponents p ≤ n →
        ((p.XEach fun c => X.Ok X.component c) ↔ XPlainComponents p) := by
      intro p hp
      rw [heightComponents_le] at hp
      rw [xplainComponents_iff]
      exact PSlice.xeach_congr fun c hc => ih c (hp c hc)
    refine xok_componentWith _ x (hl _ hm.1) ?_
    intro p hp
    have hp : x.pedigree = some p := hp
    have hm := hm.2
    simp only [hp, heightPedigreeOpt, heightPedigree_eq, Nat.max_le] at hm
    exact xok_pedigreeWith _ p (hl _ hm.1) (hl _ hm.2.1) (hl _ hm.2.2)

instance : XNonEmpty X.dataClassification := ⟨fun _ => rfl⟩

theorem xok_dataClassification (x : DataClassification) : X.Ok X.dataClassification x ↔ x.XPlain := by
  obtain ⟨f, c, n, d, g, s, t⟩ := x
  have hg : (g.map X.dataGovernance.norm = g ∧ ∀ g' ∈ g, X.dataGovernance.good g') ↔ ∀ g' ∈ g, g'.XPlain := by
    cases g with
    | none => simp
    | some g =>
      have h := xok_dataGovernance g
      simp only [X.Ok, show X.dataGovernance.writes g = true from rfl, true_and] at h
      simp [← h]
  simp only [X.Ok, X.dataClassification, DataClassification.XPlain, DataClassification.mk.injEq, sanitize_eq, ← hg,
    ← xeach_strings, true_and]
  grind

theorem xplainServiceList_iff (xs : List Service) : XPlainServiceList xs ↔ ∀ c ∈ xs, c.XPlain := by
  induction xs with
  | nil => simp [XPlainServiceList]
  | cons x xs ih => simp [XPlainServiceList, ih]

theorem xplainServices_iff (p : PSlice Service) : XPlainServices p ↔ p.XEach Service.XPlain := by
  cases p <;> simp [XPlainServices, PSlice.XEach, xplainServiceList_iff]

theorem xok_serviceWith (C : XCodec Service) [XNonEmpty C] [XNamed C] (x : Service)
    (h1 : (x.services.XEach fun c => X.Ok C c) ↔ XPlainServices x.services) :
    X.Ok (X.serviceWith C) x ↔ x.XPlain := by
  rw [X.serviceWith, xok_struct (X.serviceFields C) _ _ (fun c => by cases c; rfl) (fun _ => rfl)]
  simp only [X.serviceFields, xokF_nil, xokF_skip, xokF_attr, xokF_attrPtr, xokF_chardata, xokF_elem, Service.toP, fok_plain_simple, fok_plain_ref, fok_plain_struct, fok_ptr, fok_list, fok_nlist, fok_dataflow, fok_evidenceData, aok_string, aok_ref, aok_int, aok_bool, aok_f32, xok_text, tok_string, tok_ref, tok_int, tok_bool, tok_f32, tok_f64, xok_ref, eok_string, eok_ref, eok_int, eok_of, fok_licenses, h1, fok_licenses, xok_dataClassification, xok_externalReference, xok_organizationalEntity, xok_patentAssertion, xok_property, xok_releaseNotes, and_true, true_and, implies_true]
  cases x; exact Iff.rfl

instance : XNonEmpty X.service := ⟨fun _ => rfl⟩
instance : XAlways X.service := ⟨fun _ => rfl⟩

theorem xok_service (x : Service) : X.Ok X.service x ↔ x.XPlain := by
  suffices H : ∀ n (x : Service), x.height ≤ n → (X.Ok X.service x ↔ x.XPlain) from
    H x.height x (Nat.le_refl _)
  intro n
  induction n with
  | zero => intro x h; rw [Service.height_eq] at h; omega
  | succ n ih =>
    intro x h
    rw [(xservice_sameAt_self x).ok]
    rw [Service.height_eq] at h
    have hm : heightServices x.services ≤ n := by omega
    refine xok_serviceWith _ x ?_
    rw [heightServices_le] at hm
    rw [xplainServices_iff]
    exact PSlice.xeach_congr fun c hc => ih c (hm c hc)

instance : XNonEmpty X.annotator := ⟨fun _ => rfl⟩
instance : XAlways X.annotator := ⟨fun _ => rfl⟩

theorem xok_annotator (x : Annotator) : X.Ok X.annotator x ↔ x.XPlain := by
  show X.Ok X.annotator x ↔ _
  rw [X.annotator, xok_struct X.annotatorFields _ _ (fun _ => rfl) (fun _ => rfl)]
  simp only [X.annotatorFields, xokF_nil, xokF_skip, xokF_attr, xokF_attrPtr, xokF_chardata, xokF_elem, Annotator.toP, Annotator.XPlain, fok_plain_simple, fok_plain_ref, fok_plain_struct, fok_ptr, fok_list, fok_nlist, fok_dataflow, fok_evidenceData, aok_string, aok_ref, aok_int, aok_bool, aok_f32, xok_text, tok_string, tok_ref, tok_int, tok_bool, tok_f32, tok_f64, xok_ref, eok_string, eok_ref, eok_int, eok_of, xok_component, xok_organizationalContact, xok_organizationalEntity, xok_service, and_true, true_and, implies_true]

instance : XNonEmpty X.annotation := ⟨fun _ => rfl⟩
instance : XAlways X.annotation := ⟨fun _ => rfl⟩

theorem xok_annotation (x : Annotation) : X.Ok X.annotation x ↔ x.XPlain := by
  show X.Ok X.annotation x ↔ _
  rw [X.annotation, xok_struct X.annotationFields _ _ (fun _ => rfl) (fun _ => rfl)]
  simp only [X.annotationFields, xokF_nil, xokF_skip, xokF_attr, xokF_attrPtr, xokF_chardata, xokF_elem, Annotation.toP, Annotation.XPlain, fok_plain_simple, fok_plain_ref, fok_plain_struct, fok_ptr, fok_list, fok_nlist, fok_dataflow, fok_evidenceData, aok_string, aok_ref, aok_int, aok_bool, aok_f32, xok_text, tok_string, tok_ref, tok_int, tok_bool, tok_f32, tok_f64, xok_ref, eok_string, eok_ref, eok_int, eok_of, xok_annotator, and_true, true_and, implies_true]

instance : XNonEmpty X.assessor := ⟨fun _ => rfl⟩
instance : XAlways X.assessor := ⟨fun _ => rfl⟩

theorem xok_assessor (x : Assessor) : X.Ok X.assessor x ↔ x.XPlain := by
  show X.Ok X.assessor x ↔ _
  rw [X.assessor, xok_struct X.assessorFields _ _ (fun _ => rfl) (fun _ => rfl)]
  simp only [X.assessorFields, xokF_nil, xokF_skip, xokF_attr, xokF_attrPtr, xokF_chardata, xokF_elem, Assessor.toP, Assessor.XPlain, fok_plain_simple, fok_plain_ref, fok_plain_struct, fok_ptr, fok_list, fok_nlist, fok_dataflow, fok_evidenceData, aok_string, aok_ref, aok_int, aok_bool, aok_f32, xok_text, tok_string, tok_ref, tok_int, tok_bool, tok_f32, tok_f64, xok_ref, eok_string, eok_ref, eok_int, eok_of, xok_organizationalEntity, and_true, true_and, implies_true]

instance : XNonEmpty X.attestationConformance := ⟨fun _ => rfl⟩
instance : XAlways X.attestationConformance := ⟨fun _ => rfl⟩

theorem xok_attestationConformance (x : AttestationConformance) : X.Ok X.attestationConformance x ↔ x.XPlain := by
  show X.Ok X.attestationConformance x ↔ _
  rw [X.attestationConformance, xok_struct X.attestationConformanceFields _ _ (fun _ => rfl) (fun _ => rfl)]
  simp only [X.attestationConformanceFields, xokF_nil, xokF_skip, xokF_attr, xokF_attrPtr, xokF_chardata, xokF_elem, AttestationConformance.toP, AttestationConformance.XPlain, fok_plain_simple, fok_plain_ref, fok_plain_struct, fok_ptr, fok_list, fok_nlist, fok_dataflow, fok_evidenceData, aok_string, aok_ref, aok_int, aok_bool, aok_f32, xok_text, tok_string, tok_ref, tok_int, tok_bool, tok_f32, tok_f64, xok_ref, eok_string, eok_ref, eok_int, eok_of, and_true, true_and, implies_true]

instance : XNonEmpty X.attestationConfidence := ⟨fun _ => rfl⟩
instance : XAlways X.attestationConfidence := ⟨fun _ => rfl⟩

theorem xok_attestationConfidence (x : AttestationConfidence) : X.Ok X.attestationConfidence x ↔ x.XPlain := by
  show X.Ok X.attestationConfidence x ↔ _
  rw [X.attestationConfidence, xok_struct X.attestationConfidenceFields _ _ (fun _ => rfl) (fun _ => rfl)]
  simp only [X.attestationConfidenceFields, xokF_nil, xokF_skip, xokF_attr, xokF_attrPtr, xokF_chardata, xokF_elem, AttestationConfidence.toP, AttestationConfidence.XPlain, fok_plain_simple, fok_plain_ref, fok_plain_struct, fok_ptr, fok_list, fok_nlist, fok_dataflow, fok_evidenceData, aok_string, aok_ref, aok_int, aok_bool, aok_f32, xok_text, tok_string, tok_ref, tok_int, tok_bool, tok_f32, tok_f64, xok_ref, eok_string, eok_ref, eok_int, eok_of, and_true, true_and, implies_true]

instance : XNonEmpty X.attestationMap := ⟨fun _ => rfl⟩
instance : XAlways X.attestationMap := ⟨fun _ => rfl⟩

theorem xok_attestationMap (x : AttestationMap) : X.Ok X.attestationMap x ↔ x.XPlain := by
  show X.Ok X.attestationMap x ↔ _
  rw [X.attestationMap, xok_struct X.attestationMapFields _ _ (fun _ => rfl) (fun _ => rfl)]
  simp only [X.attestationMapFields, xokF_nil, xokF_skip, xokF_attr, xokF_attrPtr, xokF_chardata, xokF_elem, AttestationMap.toP, AttestationMap.XPlain, fok_plain_simple, fok_plain_ref, fok_plain_struct, fok_ptr, fok_list, fok_nlist, fok_dataflow, fok_evidenceData, aok_string, aok_ref, aok_int, aok_bool, aok_f32, xok_text, tok_string, tok_ref, tok_int, tok_bool, tok_f32, tok_f64, xok_ref, eok_string, eok_ref, eok_int, eok_of, xok_attestationConfidence, xok_attestationConformance, and_true, true_and, implies_true]

instance : XNonEmpty X.attestation := ⟨fun _ => rfl⟩
instance : XAlways X.attestation := ⟨fun _ => rfl⟩

theorem xok_attestation (x : Attestation) : X.Ok X.attestation x ↔ x.XPlain := by
  show X.Ok X.attestation x ↔ _
  rw [X.attestation, xok_struct X.attestationFields _ _ (fun _ => rfl) (fun _ => rfl)]
  simp only [X.attestationFields, xokF_nil, xokF_skip, xokF_attr, xokF_attrPtr, xokF_chardata, xokF_elem, Attestation.toP, Attestation.XPlain, fok_plain_simple, fok_plain_ref, fok_plain_struct, fok_ptr, fok_list, fok_nlist, fok_dataflow, fok_evidenceData, aok_string, aok_ref, aok_int, aok_bool, aok_f32, xok_text, tok_string, tok_ref, tok_int, tok_bool, tok_f32, tok_f64, xok_ref, eok_string, eok_ref, eok_int, eok_of, xok_attestationMap, and_true, true_and, implies_true]

instance : XNonEmpty X.composition := ⟨fun _ => rfl⟩
instance : XAlways X.composition := ⟨fun _ => rfl⟩

theorem xok_composition (x : Composition) : X.Ok X.composition x ↔ x.XPlain := by
  show X.Ok X.composition x ↔ _
  rw [X.composition, xok_struct X.compositionFields _ _ (fun _ => rfl) (fun _ => rfl)]
  simp only [X.compositionFields, xokF_nil, xokF_skip, xokF_attr, xokF_attrPtr, xokF_chardata, xokF_elem, Composition.toP, Composition.XPlain, fok_plain_simple, fok_plain_ref, fok_plain_struct, fok_ptr, fok_list, fok_nlist, fok_dataflow, fok_evidenceData, aok_string, aok_ref, aok_int, aok_bool, aok_f32, xok_text, tok_string, tok_ref, tok_int, tok_bool, tok_f32, tok_f64, xok_ref, eok_string, eok_ref, eok_int, eok_of, and_true, true_and, implies_true]

instance : XNonEmpty X.claim := ⟨fun _ => rfl⟩
instance : XAlways X.claim := ⟨fun _ => rfl⟩

theorem xok_claim (x : Claim) : X.Ok X.claim x ↔ x.XPlain := by
  show X.Ok X.claim x ↔ _
  rw [X.claim, xok_struct X.claimFields _ _ (fun _ => rfl) (fun _ => rfl)]
  simp only [X.claimFields, xokF_nil, xokF_skip, xokF_attr, xokF_attrPtr, xokF_chardata, xokF_elem, Claim.toP, Claim.XPlain, fok_plain_simple, fok_plain_ref, fok_plain_struct, fok_ptr, fok_list, fok_nlist, fok_dataflow, fok_evidenceData, aok_string, aok_ref, aok_int, aok_bool, aok_f32, xok_text, tok_string, tok_ref, tok_int, tok_bool, tok_f32, tok_f64, xok_ref, eok_string, eok_ref, eok_int, eok_of, xok_externalReference, and_true, true_and, implies_true]

instance : XNonEmpty X.evidenceDataContents := ⟨fun _ => rfl⟩
instance : XAlways X.evidenceDataContents := ⟨fun _ => rfl⟩

theorem xok_evidenceDataContents (x : EvidenceDataContents) : X.Ok X.evidenceDataContents x ↔ x.XPlain := by
  show X.Ok X.evidenceDataContents x ↔ _
  rw [X.evidenceDataContents, xok_struct X.evidenceDataContentsFields _ _ (fun _ => rfl) (fun _ => rfl)]
  simp only [X.evidenceDataContentsFields, xokF_nil, xokF_skip, xokF_attr, xokF_attrPtr, xokF_chardata, xokF_elem, EvidenceDataContents.toP, EvidenceDataContents.XPlain, fok_plain_simple, fok_plain_ref, fok_plain_struct, fok_ptr, fok_list, fok_nlist, fok_dataflow, fok_evidenceData, aok_string, aok_ref, aok_int, aok_bool, aok_f32, xok_text, tok_string, tok_ref, tok_int, tok_bool, tok_f32, tok_f64, xok_ref, eok_string, eok_ref, eok_int, eok_of, xok_attachedText, and_true, true_and, implies_true]

instance : XNonEmpty X.evidenceData := ⟨fun _ => rfl⟩
instance : XAlways X.evidenceData := ⟨fun _ => rfl⟩

theorem xok_evidenceData (x : EvidenceData) : X.Ok X.evidenceData x ↔ x.XPlain := by
  show X.Ok X.evidenceData x ↔ _
  rw [X.evidenceData, xok_struct X.evidenceDataFields _ _ (fun _ => rfl) (fun _ => rfl)]
  simp only [X.evidenceDataFields, xokF_nil, xokF_skip, xokF_attr, xokF_attrPtr, xokF_chardata, xokF_elem, EvidenceData.toP, EvidenceData.XPlain, fok_plain_simple, fok_plain_ref, fok_plain_struct, fok_ptr, fok_list, fok_nlist, fok_dataflow, fok_evidenceData, aok_string, aok_ref, aok_int, aok_bool, aok_f32, xok_text, tok_string, tok_ref, tok_int, tok_bool, tok_f32, tok_f64, xok_ref, eok_string, eok_ref, eok_int, eok_of, xok_dataGovernance, xok_evidenceDataContents, and_true, true_and, implies_true]

instance : XNonEmpty X.declarationEvidence := ⟨fun _ => rfl⟩
instance : XAlways X.declarationEvidence := ⟨fun _ => rfl⟩

theorem xok_declarationEvidence (x : DeclarationEvidence) : X.Ok X.declarationEvidence x ↔ x.XPlain := by
  show X.Ok X.declarationEvidence x ↔ _
  rw [X.declarationEvidence, xok_struct X.declarationEvidenceFields _ _ (fun _ => rfl) (fun _ => rfl)]
  simp only [X.declarationEvidenceFields, xokF_nil, xokF_skip, xokF_attr, xokF_attrPtr, xokF_chardata, xokF_elem, DeclarationEvidence.toP, DeclarationEvidence.XPlain, fok_plain_simple, fok_plain_ref, fok_plain_struct, fok_ptr, fok_list, fok_nlist, fok_dataflow, fok_evidenceData, aok_string, aok_ref, aok_int, aok_bool, aok_f32, xok_text, tok_string, tok_ref, tok_int, tok_bool, tok_f32, tok_f64, xok_ref, eok_string, eok_ref, eok_int, eok_of, xok_evidenceData, xok_organizationalContact, and_true, true_and, implies_true]

instance : XNonEmpty X.targets := ⟨fun _ => rfl⟩
instance : XAlways X.targets := ⟨fun _ => rfl⟩

theorem xok_targets (x : Targets) : X.Ok X.targets x ↔ x.XPlain := by
  show X.Ok X.targets x ↔ _
  rw [X.targets, xok_struct X.targetsFields _ _ (fun _ => rfl) (fun _ => rfl)]
  simp only [X.targetsFields, xokF_nil, xokF_skip, xokF_attr, xokF_attrPtr, xokF_chardata, xokF_elem, Targets.toP, Targets.XPlain, fok_plain_simple, fok_plain_ref, fok_plain_struct, fok_ptr, fok_list, fok_nlist, fok_dataflow, fok_evidenceData, aok_string, aok_ref, aok_int, aok_bool, aok_f32, xok_text, tok_string, tok_ref, tok_int, tok_bool, tok_f32, tok_f64, xok_ref, eok_string, eok_ref, eok_int, eok_of, xok_component, xok_organizationalEntity, xok_service, and_true, true_and, implies_true]

instance : XNonEmpty X.signatory := ⟨fun _ => rfl⟩
instance : XAlways X.signatory := ⟨fun _ => rfl⟩

theorem xok_signatory (x : Signatory) : X.Ok X.signatory x ↔ x.XPlain := by
  show X.Ok X.signatory x ↔ _
  rw [X.signatory, xok_struct X.signatoryFields _ _ (fun _ => rfl) (fun _ => rfl)]
  simp only [X.signatoryFields, xokF_nil, xokF_skip, xokF_attr, xokF_attrPtr, xokF_chardata, xokF_elem, Signatory.toP, Signatory.XPlain, fok_plain_simple, fok_plain_ref, fok_plain_struct, fok_ptr, fok_list, fok_nlist, fok_dataflow, fok_evidenceData, aok_string, aok_ref, aok_int, aok_bool, aok_f32, xok_text, tok_string, tok_ref, tok_int, tok_bool, tok_f32, tok_f64, xok_ref, eok_string, eok_ref, eok_int, eok_of, xok_externalReference, xok_organizationalEntity, and_true, true_and, implies_true]

instance : XNonEmpty X.affirmation := ⟨fun _ => rfl⟩
instance : XAlways X.affirmation := ⟨fun _ => rfl⟩

theorem xok_affirmation (x : Affirmation) : X.Ok X.affirmation x ↔ x.XPlain := by
  show X.Ok X.affirmation x ↔ _
  rw [X.affirmation, xok_struct X.affirmationFields _ _ (fun _ => rfl) (fun _ => rfl)]
  simp only [X.affirmationFields, xokF_nil, xokF_skip, xokF_attr, xokF_attrPtr, xokF_chardata, xokF_elem, Affirmation.toP, Affirmation.XPlain, fok_plain_simple, fok_plain_ref, fok_plain_struct, fok_ptr, fok_list, fok_nlist, fok_dataflow, fok_evidenceData, aok_string, aok_ref, aok_int, aok_bool, aok_f32, xok_text, tok_string, tok_ref, tok_int, tok_bool, tok_f32, tok_f64, xok_ref, eok_string, eok_ref, eok_int, eok_of, xok_signatory, and_true, true_and, implies_true]

instance : XNonEmpty X.declarations := ⟨fun _ => rfl⟩
instance : XAlways X.declarations := ⟨fun _ => rfl⟩

theorem xok_declarations (x : Declarations) : X.Ok X.declarations x ↔ x.XPlain := by
  show X.Ok X.declarations x ↔ _
  rw [X.declarations, xok_struct X.declarationsFields _ _ (fun _ => rfl) (fun _ => rfl)]
  simp only [X.declarationsFields, xokF_nil, xokF_skip, xokF_attr, xokF_attrPtr, xokF_chardata, xokF_elem, Declarations.toP, Declarations.XPlain, fok_plain_simple, fok_plain_ref, fok_plain_struct, fok_ptr, fok_list, fok_nlist, fok_dataflow, fok_evidenceData, aok_string, aok_ref, aok_int, aok_bool, aok_f32, xok_text, tok_string, tok_ref, tok_int, tok_bool, tok_f32, tok_f64, xok_ref, eok_string, eok_ref, eok_int, eok_of, xok_affirmation, xok_assessor, xok_attestation, xok_claim, xok_declarationEvidence, xok_targets, and_true, true_and, implies_true]

instance : XNonEmpty X.priorityApplication := ⟨fun _ => rfl⟩
instance : XAlways X.priorityApplication := ⟨fun _ => rfl⟩

theorem xok_priorityApplication (x : PriorityApplication) : X.Ok X.priorityApplication x ↔ x.XPlain := by
  show X.Ok X.priorityApplication x ↔ _
  rw [X.priorityApplication, xok_struct X.priorityApplicationFields _ _ (fun _ => rfl) (fun _ => rfl)]
  simp only [X.priorityApplicationFields, xokF_nil, xokF_skip, xokF_attr, xokF_attrPtr, xokF_chardata, xokF_elem, PriorityApplication.toP, PriorityApplication.XPlain, fok_plain_simple, fok_plain_ref, fok_plain_struct, fok_ptr, fok_list, fok_nlist, fok_dataflow, fok_evidenceData, aok_string, aok_ref, aok_int, aok_bool, aok_f32, xok_text, tok_string, tok_ref, tok_int, tok_bool, tok_f32, tok_f64, xok_ref, eok_string, eok_ref, eok_int, eok_of, and_true, true_and, implies_true]

instance : XNonEmpty X.patent := ⟨fun _ => rfl⟩
instance : XAlways X.patent := ⟨fun _ => rfl⟩

theorem xok_patent (x : Patent) : X.Ok X.patent x ↔ x.XPlain := by
  show X.Ok X.patent x ↔ _
  rw [X.patent, xok_struct X.patentFields _ _ (fun _ => rfl) (fun _ => rfl)]
  simp only [X.patentFields, xokF_nil, xokF_skip, xokF_attr, xokF_attrPtr, xokF_chardata, xokF_elem, Patent.toP, Patent.XPlain, fok_plain_simple, fok_plain_ref, fok_plain_struct, fok_ptr, fok_list, fok_nlist, fok_dataflow, fok_evidenceData, aok_string, aok_ref, aok_int, aok_bool, aok_f32, xok_text, tok_string, tok_ref, tok_int, tok_bool, tok_f32, tok_f64, xok_ref, eok_string, eok_ref, eok_int, eok_of, xok_externalReference, xok_organizationalEntityOrContact, xok_priorityApplication, and_true, true_and, implies_true]

instance : XNonEmpty X.patentFamily := ⟨fun _ => rfl⟩
instance : XAlways X.patentFamily := ⟨fun _ => rfl⟩

theorem xok_patentFamily (x : PatentFamily) : X.Ok X.patentFamily x ↔ x.XPlain := by
  show X.Ok X.patentFamily x ↔ _
  rw [X.patentFamily, xok_struct X.patentFamilyFields _ _ (fun _ => rfl) (fun _ => rfl)]
  simp only [X.patentFamilyFields, xokF_nil, xokF_skip, xokF_attr, xokF_attrPtr, xokF_chardata, xokF_elem, PatentFamily.toP, PatentFamily.XPlain, fok_plain_simple, fok_plain_ref, fok_plain_struct, fok_ptr, fok_list, fok_nlist, fok_dataflow, fok_evidenceData, aok_string, aok_ref, aok_int, aok_bool, aok_f32, xok_text, tok_string, tok_ref, tok_int, tok_bool, tok_f32, tok_f64, xok_ref, eok_string, eok_ref, eok_int, eok_of, xok_externalReference, xok_priorityApplication, and_true, true_and, implies_true]


instance : XNonEmpty X.standardRequirement := ⟨fun _ => rfl⟩
instance : XAlways X.standardRequirement := ⟨fun _ => rfl⟩

theorem xok_standardRequirement (x : StandardRequirement) : X.Ok X.standardRequirement x ↔ x.XPlain := by
  show X.Ok X.standardRequirement x ↔ _
  rw [X.standardRequirement, xok_struct X.standardRequirementFields _ _ (fun _ => rfl) (fun _ => rfl)]
  simp only [X.standardRequirementFields, xokF_nil, xokF_skip, xokF_attr, xokF_attrPtr, xokF_chardata, xokF_elem, StandardRequirement.toP, StandardRequirement.XPlain, fok_plain_simple, fok_plain_ref, fok_plain_struct, fok_ptr, fok_list, fok_nlist, fok_dataflow, fok_evidenceData, aok_string, aok_ref, aok_int, aok_bool, aok_f32, xok_text, tok_string, tok_ref, tok_int, tok_bool, tok_f32, tok_f64, xok_ref, eok_string, eok_ref, eok_int, eok_of, xok_externalReference, xok_property, and_true, true_and, implies_true]

instance : XNonEmpty X.standardLevel := ⟨fun _ => rfl⟩
instance : XAlways X.standardLevel := ⟨fun _ => rfl⟩

theorem xok_standardLevel (x : StandardLevel) : X.Ok X.standardLevel x ↔ x.XPlain := by
  show X.Ok X.standardLevel x ↔ _
  rw [X.standardLevel, xok_struct X.standardLevelFields _ _ (fun _ => rfl) (fun _ => rfl)]
  simp only [X.standardLevelFields, xokF_nil, xokF_skip, xokF_attr, xokF_attrPtr, xokF_chardata, xokF_elem, StandardLevel.toP, StandardLevel.XPlain, fok_plain_simple, fok_plain_ref, fok_plain_struct, fok_ptr, fok_list, fok_nlist, fok_dataflow, fok_evidenceData, aok_string, aok_ref, aok_int, aok_bool, aok_f32, xok_text, tok_string, tok_ref, tok_int, tok_bool, tok_f32, tok_f64, xok_ref, eok_string, eok_ref, eok_int, eok_of, and_true, true_and, implies_true]

instance : XNonEmpty X.standardDefinition := ⟨fun _ => rfl⟩
instance : XAlways X.standardDefinition := ⟨fun _ => rfl⟩

theorem xok_standardDefinition (x : StandardDefinition) : X.Ok X.standardDefinition x ↔ x.XPlain := by
  show X.Ok X.standardDefinition x ↔ _
  rw [X.standardDefinition, xok_struct X.standardDefinitionFields _ _ (fun _ => rfl) (fun _ => rfl)]
  simp only [X.standardDefinitionFields, xokF_nil, xokF_skip, xokF_attr, xokF_attrPtr, xokF_chardata, xokF_elem, StandardDefinition.toP, StandardDefinition.XPlain, fok_plain_simple, fok_plain_ref, fok_plain_struct, fok_ptr, fok_list, fok_nlist, fok_dataflow, fok_evidenceData, aok_string, aok_ref, aok_int, aok_bool, aok_f32, xok_text, tok_string, tok_ref, tok_int, tok_bool, tok_f32, tok_f64, xok_ref, eok_string, eok_ref, eok_int, eok_of, xok_externalReference, xok_standardLevel, xok_standardRequirement, and_true, true_and, implies_true]

instance : XNonEmpty X.definitions := ⟨fun _ => rfl⟩

theorem patentChoiceNorm_length (x : PatentChoice) : (X.patentChoiceNorm x).length ≤ 1 := by
  unfold X.patentChoiceNorm
  split <;> simp

theorem xok_patentChoice (x : PatentChoice) :
    X.patentChoiceNorm x = [x] ∧ ((∀ p ∈ x.patent, X.patent.good p) ∧ (∀ f ∈ x.patentFamily, X.patentFamily.good f)) ↔
      x.XPlain := by
  obtain ⟨p, f⟩ := x
  cases p with
  | some p =>
    have h := xok_patent p
    simp only [X.Ok, show X.patent.writes p = true from rfl, true_and] at h
    cases f <;> simp [X.patentChoiceNorm, PatentChoice.XPlain, ← h] <;> grind
  | none =>
    cases f with
    | some f =>
      have h := xok_patentFamily f
      simp only [X.Ok, show X.patentFamily.writes f = true from rfl, true_and] at h
      simp [X.patentChoiceNorm, PatentChoice.XPlain, ← h]
    | none => simp [X.patentChoiceNorm, PatentChoice.XPlain]

theorem xok_definitions (x : Definitions) : X.Ok X.definitions x ↔ x.XPlain := by
  have h1 := xeach_flatMap patentChoiceNorm_length xok_patentChoice x.patents
  have h2 := xeach_map (f := X.standardDefinition.norm) (Q := X.standardDefinition.good) (P := StandardDefinition.XPlain)
    (fun s => by
      have h := xok_standardDefinition s
      simpa only [X.Ok, show X.standardDefinition.writes s = true from rfl, true_and] using h) x.standards
  rw [Definitions.XPlain, ← h1, ← h2]
  obtain ⟨s, p⟩ := x
  simp only [X.Ok, X.definitions, Definitions.mk.injEq, true_and]
  grind

instance : XNonEmpty X.dependency := ⟨fun _ => rfl⟩

theorem xok_dependency (x : Dependency) : X.Ok X.dependency x ↔ x.XPlain := by
  show X.Ok (XCodec.struct X.dependencyFields Dependency.toP Dependency.ofP) x ↔ _
  rw [xok_struct X.dependencyFields _ _ (fun _ => rfl) (fun _ => rfl)]
  simp only [X.dependencyFields, xokF_nil, xokF_skip, xokF_attr, xokF_attrPtr, xokF_chardata, xokF_elem, Dependency.toP, Dependency.XPlain, fok_plain_simple, fok_plain_ref, fok_plain_struct, fok_ptr, fok_list, fok_nlist, fok_dataflow, fok_evidenceData, aok_string, aok_ref, aok_int, aok_bool, aok_f32, xok_text, tok_string, tok_ref, tok_int, tok_bool, tok_f32, tok_f64, xok_ref, eok_string, eok_ref, eok_int, eok_of, xok_dependencyRef, and_true]

instance : XNonEmpty X.resourceReferenceChoice := ⟨fun _ => rfl⟩
instance : XAlways X.resourceReferenceChoice := ⟨fun _ => rfl⟩

theorem xok_resourceReferenceChoice (x : ResourceReferenceChoice) : X.Ok X.resourceReferenceChoice x ↔ x.XPlain := by
  show X.Ok X.resourceReferenceChoice x ↔ _
  rw [X.resourceReferenceChoice, xok_struct X.resourceReferenceChoiceFields _ _ (fun _ => rfl) (fun _ => rfl)]
  simp only [X.resourceReferenceChoiceFields, xokF_nil, xokF_skip, xokF_attr, xokF_attrPtr, xokF_chardata, xokF_elem, ResourceReferenceChoice.toP, ResourceReferenceChoice.XPlain, fok_plain_simple, fok_plain_ref, fok_plain_struct, fok_ptr, fok_list, fok_nlist, fok_dataflow, fok_evidenceData, aok_string, aok_ref, aok_int, aok_bool, aok_f32, xok_text, tok_string, tok_ref, tok_int, tok_bool, tok_f32, tok_f64, xok_ref, eok_string, eok_ref, eok_int, eok_of, xok_externalReference, and_true, true_and, implies_true]

theorem xok_environmentVariableChoice (x : EnvironmentVariableChoice) :
    X.environmentVariableNorm x = [x] ↔ x.XPlain := by
  obtain ⟨p, v⟩ := x
  cases p with
  | some p =>
    have hp := xok_property p
    simp only [X.Ok] at hp
    have hw : X.property.writes p = true ∧ X.property.good p := ⟨rfl, by simp [X.property, XCodec.struct, X.propertyFields, XFields.good, XText.string]⟩
    simp only [hw.1, hw.2, true_and, and_true] at hp
    simp only [X.environmentVariableNorm, EnvironmentVariableChoice.XPlain, ← hp]
    simp
    grind
  | none =>
    by_cases hv : v = ""
    · simp [X.environmentVariableNorm, EnvironmentVariableChoice.XPlain, hv]
    · simp [X.environmentVariableNorm, EnvironmentVariableChoice.XPlain, hv, sanitize_eq]

theorem environmentVariableNorm_length (x : EnvironmentVariableChoice) : (X.environmentVariableNorm x).length ≤ 1 := by
  unfold X.environmentVariableNorm
  split
  · simp
  · split <;> simp

theorem xok_environmentVariables (ls : List EnvironmentVariableChoice) :
    X.Ok X.environmentVariables ls ↔ ls ≠ [] ∧ ∀ l ∈ ls, EnvironmentVariableChoice.XPlain l := by
  simp only [X.Ok, X.environmentVariables, flatMap_eq_self environmentVariableNorm_length, ← xok_environmentVariableChoice]
  simp

theorem fok_environmentVariables (n : String) (p : PSlice EnvironmentVariableChoice) :
    X.FOk (XField.slice n X.environmentVariables) p ↔ p.XEach EnvironmentVariableChoice.XPlain := by
  rw [fok_slice n X.environmentVariables p _ xok_environmentVariables]
  simp [X.environmentVariables]

instance : XNonEmpty X.parameter := ⟨fun _ => rfl⟩
instance : XAlways X.parameter := ⟨fun _ => rfl⟩

theorem xok_parameter (x : Parameter) : X.Ok X.parameter x ↔ x.XPlain := by
  show X.Ok X.parameter x ↔ _
  rw [X.parameter, xok_struct X.parameterFields _ _ (fun _ => rfl) (fun _ => rfl)]
  simp only [X.parameterFields, xokF_nil, xokF_skip, xokF_attr, xokF_attrPtr, xokF_chardata, xokF_elem, Parameter.toP, Parameter.XPlain, fok_plain_simple, fok_plain_ref, fok_plain_struct, fok_ptr, fok_list, fok_nlist, fok_dataflow, fok_evidenceData, aok_string, aok_ref, aok_int, aok_bool, aok_f32, xok_text, tok_string, tok_ref, tok_int, tok_bool, tok_f32, tok_f64, xok_ref, eok_string, eok_ref, eok_int, eok_of, and_true, true_and, implies_true]

instance : XNonEmpty X.taskInput := ⟨fun _ => rfl⟩
instance : XAlways X.taskInput := ⟨fun _ => rfl⟩

theorem xok_taskInput (x : TaskInput) : X.Ok X.taskInput x ↔ x.XPlain := by
  show X.Ok X.taskInput x ↔ _
  rw [X.taskInput, xok_struct X.taskInputFields _ _ (fun _ => rfl) (fun _ => rfl)]
  simp only [X.taskInputFields, xokF_nil, xokF_skip, xokF_attr, xokF_attrPtr, xokF_chardata, xokF_elem, TaskInput.toP, TaskInput.XPlain, fok_plain_simple, fok_plain_ref, fok_plain_struct, fok_ptr, fok_list, fok_nlist, fok_dataflow, fok_evidenceData, aok_string, aok_ref, aok_int, aok_bool, aok_f32, xok_text, tok_string, tok_ref, tok_int, tok_bool, tok_f32, tok_f64, xok_ref, eok_string, eok_ref, eok_int, eok_of, fok_environmentVariables, xok_attachedText, xok_parameter, xok_property, xok_resourceReferenceChoice, and_true, true_and, implies_true]

instance : XNonEmpty X.taskOutput := ⟨fun _ => rfl⟩
instance : XAlways X.taskOutput := ⟨fun _ => rfl⟩

theorem xok_taskOutput (x : TaskOutput) : X.Ok X.taskOutput x ↔ x.XPlain := by
  show X.Ok X.taskOutput x ↔ _
  rw [X.taskOutput, xok_struct X.taskOutputFields _ _ (fun _ => rfl) (fun _ => rfl)]
  simp only [X.taskOutputFields, xokF_nil, xokF_skip, xokF_attr, xokF_attrPtr, xokF_chardata, xokF_elem, TaskOutput.toP, TaskOutput.XPlain, fok_plain_simple, fok_plain_ref, fok_plain_struct, fok_ptr, fok_list, fok_nlist, fok_dataflow, fok_evidenceData, aok_string, aok_ref, aok_int, aok_bool, aok_f32, xok_text, tok_string, tok_ref, tok_int, tok_bool, tok_f32, tok_f64, xok_ref, eok_string, eok_ref, eok_int, eok_of, fok_environmentVariables, xok_attachedText, xok_parameter, xok_property, xok_resourceReferenceChoice, and_true, true_and, implies_true]

instance : XNonEmpty X.taskCommand := ⟨fun _ => rfl⟩
instance : XAlways X.taskCommand := ⟨fun _ => rfl⟩

theorem xok_taskCommand (x : TaskCommand) : X.Ok X.taskCommand x ↔ x.XPlain := by
  show X.Ok X.taskCommand x ↔ _
  rw [X.taskCommand, xok_struct X.taskCommandFields _ _ (fun _ => rfl) (fun _ => rfl)]
  simp only [X.taskCommandFields, xokF_nil, xokF_skip, xokF_attr, xokF_attrPtr, xokF_chardata, xokF_elem, TaskCommand.toP, TaskCommand.XPlain, fok_plain_simple, fok_plain_ref, fok_plain_struct, fok_ptr, fok_list, fok_nlist, fok_dataflow, fok_evidenceData, aok_string, aok_ref, aok_int, aok_bool, aok_f32, xok_text, tok_string, tok_ref, tok_int, tok_bool, tok_f32, tok_f64, xok_ref, eok_string, eok_ref, eok_int, eok_of, xok_property, and_true, true_and, implies_true]

instance : XNonEmpty X.taskStep := ⟨fun _ => rfl⟩
instance : XAlways X.taskStep := ⟨fun _ => rfl⟩

theorem xok_taskStep (x : TaskStep) : X.Ok X.taskStep x ↔ x.XPlain := by
  show X.Ok X.taskStep x ↔ _
  rw [X.taskStep, xok_struct X.taskStepFields _ _ (fun _ => rfl) (fun _ => rfl)]
  simp only [X.taskStepFields, xokF_nil, xokF_skip, xokF_attr, xokF_attrPtr, xokF_chardata, xokF_elem, TaskStep.toP, TaskStep.XPlain, fok_plain_simple, fok_plain_ref, fok_plain_struct, fok_ptr, fok_list, fok_nlist, fok_dataflow, fok_evidenceData, aok_string, aok_ref, aok_int, aok_bool, aok_f32, xok_text, tok_string, tok_ref, tok_int, tok_bool, tok_f32, tok_f64, xok_ref, eok_string, eok_ref, eok_int, eok_of, xok_property, xok_taskCommand, and_true, true_and, implies_true]

instance : XNonEmpty X.event := ⟨fun _ => rfl⟩
instance : XAlways X.event := ⟨fun _ => rfl⟩

theorem xok_event (x : Event) : X.Ok X.event x ↔ x.XPlain := by
  show X.Ok X.event x ↔ _
  rw [X.event, xok_struct X.eventFields _ _ (fun _ => rfl) (fun _ => rfl)]
  simp only [X.eventFields, xokF_nil, xokF_skip, xokF_attr, xokF_attrPtr, xokF_chardata, xokF_elem, Event.toP, Event.XPlain, fok_plain_simple, fok_plain_ref, fok_plain_struct, fok_ptr, fok_list, fok_nlist, fok_dataflow, fok_evidenceData, aok_string, aok_ref, aok_int, aok_bool, aok_f32, xok_text, tok_string, tok_ref, tok_int, tok_bool, tok_f32, tok_f64, xok_ref, eok_string, eok_ref, eok_int, eok_of, xok_attachedText, xok_property, xok_resourceReferenceChoice, and_true, true_and, implies_true]

instance : XNonEmpty X.taskTriggerCondition := ⟨fun _ => rfl⟩
instance : XAlways X.taskTriggerCondition := ⟨fun _ => rfl⟩

theorem xok_taskTriggerCondition (x : TaskTriggerCondition) : X.Ok X.taskTriggerCondition x ↔ x.XPlain := by
  show X.Ok X.taskTriggerCondition x ↔ _
  rw [X.taskTriggerCondition, xok_struct X.taskTriggerConditionFields _ _ (fun _ => rfl) (fun _ => rfl)]
  simp only [X.taskTriggerConditionFields, xokF_nil, xokF_skip, xokF_attr, xokF_attrPtr, xokF_chardata, xokF_elem, TaskTriggerCondition.toP, TaskTriggerCondition.XPlain, fok_plain_simple, fok_plain_ref, fok_plain_struct, fok_ptr, fok_list, fok_nlist, fok_dataflow, fok_evidenceData, aok_string, aok_ref, aok_int, aok_bool, aok_f32, xok_text, tok_string, tok_ref, tok_int, tok_bool, tok_f32, tok_f64, xok_ref, eok_string, eok_ref, eok_int, eok_of, xok_property, and_true, true_and, implies_true]

instance : XNonEmpty X.taskTrigger := ⟨fun _ => rfl⟩
instance : XAlways X.taskTrigger := ⟨fun _ => rfl⟩

theorem xok_taskTrigger (x : TaskTrigger) : X.Ok X.taskTrigger x ↔ x.XPlain := by
  show X.Ok X.taskTrigger x ↔ _
  rw [X.taskTrigger, xok_struct X.taskTriggerFields _ _ (fun _ => rfl) (fun _ => rfl)]
  simp only [X.taskTriggerFields, xokF_nil, xokF_skip, xokF_attr, xokF_attrPtr, xokF_chardata, xokF_elem, TaskTrigger.toP, TaskTrigger.XPlain, fok_plain_simple, fok_plain_ref, fok_plain_struct, fok_ptr, fok_list, fok_nlist, fok_dataflow, fok_evidenceData, aok_string, aok_ref, aok_int, aok_bool, aok_f32, xok_text, tok_string, tok_ref, tok_int, tok_bool, tok_f32, tok_f64, xok_ref, eok_string, eok_ref, eok_int, eok_of, xok_event, xok_property, xok_resourceReferenceChoice, xok_taskInput, xok_taskOutput, xok_taskTriggerCondition, and_true, true_and, implies_true]

instance : XNonEmpty X.volume := ⟨fun _ => rfl⟩
instance : XAlways X.volume := ⟨fun _ => rfl⟩

theorem xok_volume (x : Volume) : X.Ok X.volume x ↔ x.XPlain := by
  show X.Ok X.volume x ↔ _
  rw [X.volume, xok_struct X.volumeFields _ _ (fun _ => rfl) (fun _ => rfl)]
  simp only [X.volumeFields, xokF_nil, xokF_skip, xokF_attr, xokF_attrPtr, xokF_chardata, xokF_elem, Volume.toP, Volume.XPlain, fok_plain_simple, fok_plain_ref, fok_plain_struct, fok_ptr, fok_list, fok_nlist, fok_dataflow, fok_evidenceData, aok_string, aok_ref, aok_int, aok_bool, aok_f32, xok_text, tok_string, tok_ref, tok_int, tok_bool, tok_f32, tok_f64, xok_ref, eok_string, eok_ref, eok_int, eok_of, xok_property, and_true, true_and, implies_true]

instance : XNonEmpty X.taskWorkspace := ⟨fun _ => rfl⟩
instance : XAlways X.taskWorkspace := ⟨fun _ => rfl⟩

theorem xok_taskWorkspace (x : TaskWorkspace) : X.Ok X.taskWorkspace x ↔ x.XPlain := by
  show X.Ok X.taskWorkspace x ↔ _
  rw [X.taskWorkspace, xok_struct X.taskWorkspaceFields _ _ (fun _ => rfl) (fun _ => rfl)]
  simp only [X.taskWorkspaceFields, xokF_nil, xokF_skip, xokF_attr, xokF_attrPtr, xokF_chardata, xokF_elem, TaskWorkspace.toP, TaskWorkspace.XPlain, fok_plain_simple, fok_plain_ref, fok_plain_struct, fok_ptr, fok_list, fok_nlist, fok_dataflow, fok_evidenceData, aok_string, aok_ref, aok_int, aok_bool, aok_f32, xok_text, tok_string, tok_ref, tok_int, tok_bool, tok_f32, tok_f64, xok_ref, eok_string, eok_ref, eok_int, eok_of, xok_property, xok_resourceReferenceChoice, xok_volume, and_true, true_and, implies_true]

instance : XNonEmpty X.task := ⟨fun _ => rfl⟩
instance : XAlways X.task := ⟨fun _ => rfl⟩

theorem xok_task (x : Task) : X.Ok X.task x ↔ x.XPlain := by
  show X.Ok X.task x ↔ _
  rw [X.task, xok_struct X.taskFields _ _ (fun _ => rfl) (fun _ => rfl)]
  simp only [X.taskFields, xokF_nil, xokF_skip, xokF_attr, xokF_attrPtr, xokF_chardata, xokF_elem, Task.toP, Task.XPlain, fok_plain_simple, fok_plain_ref, fok_plain_struct, fok_ptr, fok_list, fok_nlist, fok_dataflow, fok_evidenceData, aok_string, aok_ref, aok_int, aok_bool, aok_f32, xok_text, tok_string, tok_ref, tok_int, tok_bool, tok_f32, tok_f64, xok_ref, eok_string, eok_ref, eok_int, eok_of, xok_dependency, xok_property, xok_resourceReferenceChoice, xok_taskInput, xok_taskOutput, xok_taskStep, xok_taskTrigger, xok_taskWorkspace, and_true, true_and, implies_true]

instance : XNonEmpty X.workflow := ⟨fun _ => rfl⟩
instance : XAlways X.workflow := ⟨fun _ => rfl⟩

theorem xok_workflow (x : Workflow) : X.Ok X.workflow x ↔ x.XPlain := by
  show X.Ok X.workflow x ↔ _
  rw [X.workflow, xok_struct X.workflowFields _ _ (fun _ => rfl) (fun _ => rfl)]
  simp only [X.workflowFields, xokF_nil, xokF_skip, xokF_attr, xokF_attrPtr, xokF_chardata, xokF_elem, Workflow.toP, Workflow.XPlain, fok_plain_simple, fok_plain_ref, fok_plain_struct, fok_ptr, fok_list, fok_nlist, fok_dataflow, fok_evidenceData, aok_string, aok_ref, aok_int, aok_bool, aok_f32, xok_text, tok_string, tok_ref, tok_int, tok_bool, tok_f32, tok_f64, xok_ref, eok_string, eok_ref, eok_int, eok_of, xok_dependency, xok_property, xok_resourceReferenceChoice, xok_task, xok_taskInput, xok_taskOutput, xok_taskStep, xok_taskTrigger, xok_taskWorkspace, and_true, true_and, implies_true]

instance : XNonEmpty X.formula := ⟨fun _ => rfl⟩
instance : XAlways X.formula := ⟨fun _ => rfl⟩

theorem xok_formula (x : Formula) : X.Ok X.formula x ↔ x.XPlain := by
  show X.Ok X.formula x ↔ _
  rw [X.formula, xok_struct X.formulaFields _ _ (fun _ => rfl) (fun _ => rfl)]
  simp only [X.formulaFields, xokF_nil, xokF_skip, xokF_attr, xokF_attrPtr, xokF_chardata, xokF_elem, Formula.toP, Formula.XPlain, fok_plain_simple, fok_plain_ref, fok_plain_struct, fok_ptr, fok_list, fok_nlist, fok_dataflow, fok_evidenceData, aok_string, aok_ref, aok_int, aok_bool, aok_f32, xok_text, tok_string, tok_ref, tok_int, tok_bool, tok_f32, tok_f64, xok_ref, eok_string, eok_ref, eok_int, eok_of, xok_component, xok_property, xok_service, xok_workflow, and_true, true_and, implies_true]

instance : XNonEmpty X.lifecycle := ⟨fun _ => rfl⟩
instance : XAlways X.lifecycle := ⟨fun _ => rfl⟩

theorem xok_lifecycle (x : Lifecycle) : X.Ok X.lifecycle x ↔ x.XPlain := by
  show X.Ok X.lifecycle x ↔ _
  rw [X.lifecycle, xok_struct X.lifecycleFields _ _ (fun _ => rfl) (fun _ => rfl)]
  simp only [X.lifecycleFields, xokF_nil, xokF_skip, xokF_attr, xokF_attrPtr, xokF_chardata, xokF_elem, Lifecycle.toP, Lifecycle.XPlain, fok_plain_simple, fok_plain_ref, fok_plain_struct, fok_ptr, fok_list, fok_nlist, fok_dataflow, fok_evidenceData, aok_string, aok_ref, aok_int, aok_bool, aok_f32, xok_text, tok_string, tok_ref, tok_int, tok_bool, tok_f32, tok_f64, xok_ref, eok_string, eok_ref, eok_int, eok_of, and_true, true_and, implies_true]

instance : XNonEmpty X.tool := ⟨fun _ => rfl⟩
instance : XAlways X.tool := ⟨fun _ => rfl⟩

theorem xok_tool (x : Tool) : X.Ok X.tool x ↔ x.XPlain := by
  show X.Ok X.tool x ↔ _
  rw [X.tool, xok_struct X.toolFields _ _ (fun _ => rfl) (fun _ => rfl)]
  simp only [X.toolFields, xokF_nil, xokF_skip, xokF_attr, xokF_attrPtr, xokF_chardata, xokF_elem, Tool.toP, Tool.XPlain, fok_plain_simple, fok_plain_ref, fok_plain_struct, fok_ptr, fok_list, fok_nlist, fok_dataflow, fok_evidenceData, aok_string, aok_ref, aok_int, aok_bool, aok_f32, xok_text, tok_string, tok_ref, tok_int, tok_bool, tok_f32, tok_f64, xok_ref, eok_string, eok_ref, eok_int, eok_of, xok_externalReference, xok_hash, and_true, true_and, implies_true]

instance : XNonEmpty X.toolsChoice := ⟨fun _ => rfl⟩

theorem xok_toolsChoice (x : ToolsChoice) : X.Ok X.toolsChoice x ↔ x.XPlain := by
  obtain ⟨t, c, s⟩ := x
  have h1 := ofList_normList true X.tool t
  have h2 := ofList_normList true X.component c
  have h3 := ofList_normList true X.service s
  simp only [eok_of, xok_tool, xok_component, xok_service] at h1 h2 h3
  have h6 : X.toolsChoice.writes ⟨t, c, s⟩ = true ↔ (⟨t, c, s⟩ : ToolsChoice) ≠ {} := by
    have hn : ∀ {α : Type} (p : PSlice α), p.isNil = true ↔ p = .nil := by intro _ p; cases p <;> simp [PSlice.isNil]
    simp only [X.toolsChoice, Bool.not_eq_true', ne_eq, ToolsChoice.mk.injEq, ← Bool.not_eq_true, Bool.and_eq_true, hn]
    grind
  rw [ToolsChoice.XPlain, ← h6, ← h1, ← h2, ← h3, X.Ok]
  simp only [X.toolsChoice, ToolsChoice.mk.injEq, X.toolsChoiceFields, XFields.good, XField.list, XField.nlist, and_true]
  constructor
  · rintro ⟨hw, ⟨a1, a2, a3⟩, b1, b2, b3⟩
    exact ⟨hw, ⟨a1, b1⟩, ⟨a2, b2⟩, a3, b3⟩
  · rintro ⟨hw, ⟨a1, b1⟩, ⟨a2, b2⟩, a3, b3⟩
    exact ⟨hw, ⟨a1, a2, a3⟩, b1, b2, b3⟩

instance : XNonEmpty X.distributionConstraints := ⟨fun _ => rfl⟩
instance : XAlways X.distributionConstraints := ⟨fun _ => rfl⟩

theorem xok_distributionConstraints (x : DistributionConstraints) : X.Ok X.distributionConstraints x ↔ x.XPlain := by
  show X.Ok X.distributionConstraints x ↔ _
  rw [X.distributionConstraints, xok_struct X.distributionConstraintsFields _ _ (fun _ => rfl) (fun _ => rfl)]
  simp only [X.distributionConstraintsFields, xokF_nil, xokF_skip, xokF_attr, xokF_attrPtr, xokF_chardata, xokF_elem, DistributionConstraints.toP, DistributionConstraints.XPlain, fok_plain_simple, fok_plain_ref, fok_plain_struct, fok_ptr, fok_list, fok_nlist, fok_dataflow, fok_evidenceData, aok_string, aok_ref, aok_int, aok_bool, aok_f32, xok_text, tok_string, tok_ref, tok_int, tok_bool, tok_f32, tok_f64, xok_ref, eok_string, eok_ref, eok_int, eok_of, and_true, true_and, implies_true]

instance : XNonEmpty X.metadata := ⟨fun _ => rfl⟩
instance : XAlways X.metadata := ⟨fun _ => rfl⟩

theorem xok_metadata (x : Metadata) : X.Ok X.metadata x ↔ x.XPlain := by
  show X.Ok X.metadata x ↔ _
  rw [X.metadata, xok_struct X.metadataFields _ _ (fun _ => rfl) (fun _ => rfl)]
  simp only [X.metadataFields, xokF_nil, xokF_skip, xokF_attr, xokF_attrPtr, xokF_chardata, xokF_elem, Metadata.toP, Metadata.XPlain, fok_plain_simple, fok_plain_ref, fok_plain_struct, fok_ptr, fok_list, fok_nlist, fok_dataflow, fok_evidenceData, aok_string, aok_ref, aok_int, aok_bool, aok_f32, xok_text, tok_string, tok_ref, tok_int, tok_bool, tok_f32, tok_f64, xok_ref, eok_string, eok_ref, eok_int, eok_of, fok_licenses, xok_component, xok_distributionConstraints, xok_lifecycle, xok_organizationalContact, xok_organizationalEntity, xok_property, xok_toolsChoice, and_true, true_and, implies_true]

instance : XNonEmpty X.credits := ⟨fun _ => rfl⟩
instance : XAlways X.credits := ⟨fun _ => rfl⟩

theorem xok_credits (x : Credits) : X.Ok X.credits x ↔ x.XPlain := by
  show X.Ok X.credits x ↔ _
  rw [X.credits, xok_struct X.creditsFields _ _ (fun _ => rfl) (fun _ => rfl)]
  simp only [X.creditsFields, xokF_nil, xokF_skip, xokF_attr, xokF_attrPtr, xokF_chardata, xokF_elem, Credits.toP, Credits.XPlain, fok_plain_simple, fok_plain_ref, fok_plain_struct, fok_ptr, fok_list, fok_nlist, fok_dataflow, fok_evidenceData, aok_string, aok_ref, aok_int, aok_bool, aok_f32, xok_text, tok_string, tok_ref, tok_int, tok_bool, tok_f32, tok_f64, xok_ref, eok_string, eok_ref, eok_int, eok_of, xok_organizationalContact, xok_organizationalEntity, and_true, true_and, implies_true]

instance : XNonEmpty X.proofOfConcept := ⟨fun _ => rfl⟩
instance : XAlways X.proofOfConcept := ⟨fun _ => rfl⟩

theorem xok_proofOfConcept (x : ProofOfConcept) : X.Ok X.proofOfConcept x ↔ x.XPlain := by
  show X.Ok X.proofOfConcept x ↔ _
  rw [X.proofOfConcept, xok_struct X.proofOfConceptFields _ _ (fun _ => rfl) (fun _ => rfl)]
  simp only [X.proofOfConceptFields, xokF_nil, xokF_skip, xokF_attr, xokF_attrPtr, xokF_chardata, xokF_elem, ProofOfConcept.toP, ProofOfConcept.XPlain, fok_plain_simple, fok_plain_ref, fok_plain_struct, fok_ptr, fok_list, fok_nlist, fok_dataflow, fok_evidenceData, aok_string, aok_ref, aok_int, aok_bool, aok_f32, xok_text, tok_string, tok_ref, tok_int, tok_bool, tok_f32, tok_f64, xok_ref, eok_string, eok_ref, eok_int, eok_of, xok_attachedText, and_true, true_and, implies_true]

instance : XNonEmpty X.vulnerabilityAnalysis := ⟨fun _ => rfl⟩
instance : XAlways X.vulnerabilityAnalysis := ⟨fun _ => rfl⟩

theorem xok_vulnerabilityAnalysis (x : VulnerabilityAnalysis) : X.Ok X.vulnerabilityAnalysis x ↔ x.XPlain := by
  show X.Ok X.vulnerabilityAnalysis x ↔ _
  rw [X.vulnerabilityAnalysis, xok_struct X.vulnerabilityAnalysisFields _ _ (fun _ => rfl) (fun _ => rfl)]
  simp only [X.vulnerabilityAnalysisFields, xokF_nil, xokF_skip, xokF_attr, xokF_attrPtr, xokF_chardata, xokF_elem, VulnerabilityAnalysis.toP, VulnerabilityAnalysis.XPlain, fok_plain_simple, fok_plain_ref, fok_plain_struct, fok_ptr, fok_list, fok_nlist, fok_dataflow, fok_evidenceData, aok_string, aok_ref, aok_int, aok_bool, aok_f32, xok_text, tok_string, tok_ref, tok_int, tok_bool, tok_f32, tok_f64, xok_ref, eok_string, eok_ref, eok_int, eok_of, and_true, true_and, implies_true]

instance : XNonEmpty X.vulnerabilityRating := ⟨fun _ => rfl⟩
instance : XAlways X.vulnerabilityRating := ⟨fun _ => rfl⟩

theorem xok_vulnerabilityRating (x : VulnerabilityRating) : X.Ok X.vulnerabilityRating x ↔ x.XPlain := by
  show X.Ok X.vulnerabilityRating x ↔ _
  rw [X.vulnerabilityRating, xok_struct X.vulnerabilityRatingFields _ _ (fun _ => rfl) (fun _ => rfl)]
  simp only [X.vulnerabilityRatingFields, xokF_nil, xokF_skip, xokF_attr, xokF_attrPtr, xokF_chardata, xokF_elem, VulnerabilityRating.toP, VulnerabilityRating.XPlain, fok_plain_simple, fok_plain_ref, fok_plain_struct, fok_ptr, fok_list, fok_nlist, fok_dataflow, fok_evidenceData, aok_string, aok_ref, aok_int, aok_bool, aok_f32, xok_text, tok_string, tok_ref, tok_int, tok_bool, tok_f32, tok_f64, xok_ref, eok_string, eok_ref, eok_int, eok_of, xok_source, and_true, true_and, implies_true]

instance : XNonEmpty X.vulnerabilityReference := ⟨fun _ => rfl⟩
instance : XAlways X.vulnerabilityReference := ⟨fun _ => rfl⟩

theorem xok_vulnerabilityReference (x : VulnerabilityReference) : X.Ok X.vulnerabilityReference x ↔ x.XPlain := by
  show X.Ok X.vulnerabilityReference x ↔ _
  rw [X.vulnerabilityReference, xok_struct X.vulnerabilityReferenceFields _ _ (fun _ => rfl) (fun _ => rfl)]
  simp only [X.vulnerabilityReferenceFields, xokF_nil, xokF_skip, xokF_attr, xokF_attrPtr, xokF_chardata, xokF_elem, VulnerabilityReference.toP, VulnerabilityReference.XPlain, fok_plain_simple, fok_plain_ref, fok_plain_struct, fok_ptr, fok_list, fok_nlist, fok_dataflow, fok_evidenceData, aok_string, aok_ref, aok_int, aok_bool, aok_f32, xok_text, tok_string, tok_ref, tok_int, tok_bool, tok_f32, tok_f64, xok_ref, eok_string, eok_ref, eok_int, eok_of, xok_source, and_true, true_and, implies_true]

instance : XNonEmpty X.vulnerability := ⟨fun _ => rfl⟩
instance : XAlways X.vulnerability := ⟨fun _ => rfl⟩

theorem xok_vulnerability (x : Vulnerability) : X.Ok X.vulnerability x ↔ x.XPlain := by
  show X.Ok X.vulnerability x ↔ _
  rw [X.vulnerability, xok_struct X.vulnerabilityFields _ _ (fun _ => rfl) (fun _ => rfl)]
  simp only [X.vulnerabilityFields, xokF_nil, xokF_skip, xokF_attr, xokF_attrPtr, xokF_chardata, xokF_elem, Vulnerability.toP, Vulnerability.XPlain, fok_plain_simple, fok_plain_ref, fok_plain_struct, fok_ptr, fok_list, fok_nlist, fok_dataflow, fok_evidenceData, aok_string, aok_ref, aok_int, aok_bool, aok_f32, xok_text, tok_string, tok_ref, tok_int, tok_bool, tok_f32, tok_f64, xok_ref, eok_string, eok_ref, eok_int, eok_of, xok_advisory, xok_affects, xok_credits, xok_proofOfConcept, xok_property, xok_source, xok_toolsChoice, xok_vulnerabilityAnalysis, xok_vulnerabilityRating, xok_vulnerabilityReference, and_true, true_and, implies_true]

instance : XNonEmpty X.citation := ⟨fun _ => rfl⟩
instance : XAlways X.citation := ⟨fun _ => rfl⟩

theorem xok_citation (x : Citation) : X.Ok X.citation x ↔ x.XPlain := by
  show X.Ok X.citation x ↔ _
  rw [X.citation, xok_struct X.citationFields _ _ (fun _ => rfl) (fun _ => rfl)]
  simp only [X.citationFields, xokF_nil, xokF_skip, xokF_attr, xokF_attrPtr, xokF_chardata, xokF_elem, Citation.toP, Citation.XPlain, fok_plain_simple, fok_plain_ref, fok_plain_struct, fok_ptr, fok_list, fok_nlist, fok_dataflow, fok_evidenceData, aok_string, aok_ref, aok_int, aok_bool, aok_f32, xok_text, tok_string, tok_ref, tok_int, tok_bool, tok_f32, tok_f64, xok_ref, eok_string, eok_ref, eok_int, eok_of, and_true, true_and, implies_true]

/-- The fields of a BOM that are part of the XML format. -/
def BOM.xmlPart (x : BOM) : BOM :=
  { x with xmlName := {}, jsonSchema := "", bomFormat := "", specVersion := 0, signature := none }

theorem xok_bom (x : BOM) : X.Ok X.bom x.xmlPart ↔ x.XPlain := by
  rw [X.bom, xok_struct X.bomFields _ _ (fun _ => rfl) (fun _ => rfl)]
  simp only [X.bomFields, xokF_nil, xokF_skip, xokF_attr, xokF_attrPtr, xokF_chardata, xokF_elem, BOM.toP, BOM.xmlPart, BOM.XPlain, fok_plain_simple, fok_plain_ref, fok_plain_struct, fok_ptr, fok_list, fok_nlist, fok_dataflow, fok_evidenceData, aok_string, aok_ref, aok_int, aok_bool, aok_f32, xok_text, tok_string, tok_ref, tok_int, tok_bool, tok_f32, tok_f64, xok_ref, eok_string, eok_ref, eok_int, eok_of, fok_licenses, fok_environmentVariables, xok_annotation, xok_citation, xok_component, xok_composition, xok_declarations, xok_definitions, xok_dependency, xok_externalReference, xok_formula, xok_metadata, xok_property, xok_service, xok_vulnerability, and_true, true_and, implies_true]

end Verif
