LHEAD = '''import Verif.Spec.XmlPlain
import Verif.Xml.StructLaws

/-!
# What survives an XML round trip

GENERATED by `tools/gen_xplain.py`; do not edit by hand.  `X.Ok c x`: the codec `c` writes `x` and reads it back
unchanged.  For every type this is `T.XPlain`.
-/

namespace Verif

open Xml (sanitize trim textOf textKids fixChar isSpace trimChars)

set_option linter.unusedSectionVars false
set_option linter.unusedSimpArgs false
set_option linter.unusedVariables false

variable [XFloatIO]

/-- The value is written and read back unchanged. -/
def X.Ok {α : Type} (c : XCodec α) (a : α) : Prop := c.writes a = true ∧ c.norm a = a ∧ c.good a
/-- The same for a text. -/
def X.TOk {α : Type} (c : XText α) (a : α) : Prop := c.norm a = a ∧ c.good a
/-- The same for a text that may be left out if it is empty. -/
def X.AOk {α : Type} (oe : Bool) (c : XText α) (a : α) : Prop :=
  (if (oe && c.empty a) = true then c.zero else c.norm a) = a ∧ c.good a
/-- The same for an element of a list. -/
def X.EOk {α : Type} (oe : Bool) (c : XCodec α) (a : α) : Prop := (oe && c.empty a) = false ∧ X.Ok c a
/-- The same for a field. -/
def X.FOk {α : Type} (f : XField α) (a : α) : Prop := f.norm a = a ∧ f.good a
/-- The same for the fields of a struct. -/
def X.OkF {β : Type} (F : XFields β) (b : β) : Prop := F.norm b = b ∧ F.good b

/-- No value of the type is left out because of `omitempty`. -/
class XNonEmpty {α : Type} (c : XCodec α) : Prop where
  empty : ∀ a, c.empty a = false

/-- Every value of the type is written. -/
class XAlways {α : Type} (c : XCodec α) : Prop where
  writes : ∀ a, c.writes a = true

/-! ### Texts -/

theorem isChar_iff (c : Char) : Xml.isChar c = true ↔ XmlChar c := by
  have h : ∀ d : Char, c = d ↔ c.toNat = d.toNat := fun d => Char.toNat_inj.symm
  simp only [Xml.isChar, XmlChar, decide_eq_true_eq, h]
  exact Iff.rfl

theorem fixChar_eq (c : Char) : fixChar c = c ↔ XmlChar c := by
  rw [← isChar_iff]
  unfold fixChar
  split
  · simp [*]
  · rename_i h
    simp only [h]
    constructor
    · intro e; exact absurd (by rw [← e]; decide) h
    · intro e; cases e

theorem xmap_eq_self {α : Type} {f : α → α} : ∀ {xs : List α}, xs.map f = xs ↔ ∀ x ∈ xs, f x = x
  | [] => by simp
  | x :: xs => by simp [xmap_eq_self (xs := xs)]

theorem length_dropWhile_le' {p : Char → Bool} (cs : List Char) : (cs.dropWhile p).length ≤ cs.length :=
  (List.dropWhile_suffix p).length_le

theorem sanitize_eq (s : String) : sanitize s = s ↔ XString s := by
  rw [← String.toList_inj, sanitize_toList, XString]
  exact xmap_eq_self.trans (forall₂_congr fun c _ => fixChar_eq c)

theorem isSpace_iff (c : Char) : isSpace c = true ↔ WhiteSpace c := by
  simp only [isSpace, WhiteSpace, decide_eq_true_eq, List.mem_cons, List.not_mem_nil, or_false]
  omega

theorem dropWhile_eq_self {p : Char → Bool} (cs : List Char) :
    cs.dropWhile p = cs ↔ ∀ c ∈ cs.head?, p c = false := by
  cases cs with
  | nil => simp
  | cons c cs =>
    simp only [List.dropWhile_cons, List.head?_cons, Option.mem_some_iff, forall_eq']
    cases h : p c
    · simp
    · simp only [if_true, iff_false, Bool.true_eq_false]
      intro e
      have := congrArg List.length e
      have h2 := length_dropWhile_le' (p := p) cs
      simp at this
      omega

theorem trimChars_eq_self (cs : List Char) :
    trimChars cs = cs ↔ (∀ c ∈ cs.head?, isSpace c = false) ∧ (∀ c ∈ cs.getLast?, isSpace c = false) := by
  unfold trimChars
  have hlen := length_dropWhile_le' (p := isSpace) cs
  constructor
  · intro e
    have h1 : cs.dropWhile isSpace = cs := by
      have h2 := length_dropWhile_le' (p := isSpace) (cs.dropWhile isSpace).reverse
      have h3 := congrArg List.length e
      simp only [List.length_reverse] at h2 h3
      have h4 := List.dropWhile_suffix isSpace (l := cs)
      exact h4.eq_of_length (by omega)
    rw [h1] at e
    refine ⟨(dropWhile_eq_self cs).1 h1, ?_⟩
    have h5 : cs.reverse.dropWhile isSpace = cs.reverse := by
      rw [← List.reverse_eq_iff]; exact e
    have := (dropWhile_eq_self _).1 h5
    simpa using this
  · rintro ⟨h1, h2⟩
    rw [(dropWhile_eq_self cs).2 h1, (dropWhile_eq_self cs.reverse).2 (by simpa using h2), List.reverse_reverse]

theorem trim_eq (s : String) : trim s = s ↔ Trimmed s := by
  rw [← String.toList_inj, trim, String.toList_ofList, trimChars_eq_self, Trimmed]
  have h : ∀ c, isSpace c = false ↔ ¬ WhiteSpace c := fun c => by rw [← isSpace_iff]; simp
  simp only [h]

theorem trimChars_length (cs : List Char) : (trimChars cs).length ≤ cs.length := by
  unfold trimChars
  have h1 := length_dropWhile_le' (p := isSpace) cs
  have h2 := length_dropWhile_le' (p := isSpace) (cs.dropWhile isSpace).reverse
  simp only [List.length_reverse] at h2 ⊢
  omega

theorem trimChars_eq_of_length {cs : List Char} (h : (trimChars cs).length = cs.length) : trimChars cs = cs := by
  unfold trimChars at h ⊢
  have h1 := length_dropWhile_le' (p := isSpace) cs
  have h2 := length_dropWhile_le' (p := isSpace) (cs.dropWhile isSpace).reverse
  simp only [List.length_reverse] at h h2
  have h3 : cs.dropWhile isSpace = cs := (List.dropWhile_suffix isSpace (l := cs)).eq_of_length (by omega)
  rw [h3] at h ⊢
  have h4 : cs.reverse.dropWhile isSpace = cs.reverse :=
    (List.dropWhile_suffix isSpace (l := cs.reverse)).eq_of_length (by simp; omega)
  rw [h4, List.reverse_reverse]

theorem trim_sanitize_eq (s : String) : trim (sanitize s) = s ↔ XString s ∧ Trimmed s := by
  constructor
  · intro h
    have hl := congrArg (fun t => t.toList.length) h
    simp only [trim, String.toList_ofList] at hl
    have h1 : trim (sanitize s) = sanitize s := by
      rw [← String.toList_inj, trim, String.toList_ofList]
      exact trimChars_eq_of_length (hl.trans (by simp [sanitize_toList]))
    rw [h] at h1
    have h2 := (sanitize_eq s).1 h1.symm
    refine ⟨h2, (trim_eq s).1 ?_⟩
    rw [← h1] at h; exact h
  · rintro ⟨h1, h2⟩
    rw [(sanitize_eq s).2 h1, (trim_eq s).2 h2]

theorem f32_canon (x : F32) : x.canonNaN = x ↔ x.XPlain := by
  simp only [F32.canonNaN, F32.isNaN, decide_eq_true_eq, F32.XPlain]
  cases x
  split
  · rename_i h
    simp only [F32.nan, F32.mk.injEq]
    exact ⟨fun e _ => e.symm, fun e => (e h).symm⟩
  · rename_i h
    exact ⟨fun _ e => absurd e h, fun _ => rfl⟩

theorem f64_canon (x : F64) : x.canonNaN = x ↔ x.XPlain := by
  simp only [F64.canonNaN, F64.isNaN, decide_eq_true_eq, F64.XPlain]
  cases x
  split
  · rename_i h
    simp only [F64.nan, F64.mk.injEq]
    exact ⟨fun e _ => e.symm, fun e => (e h).symm⟩
  · rename_i h
    exact ⟨fun _ e => absurd e h, fun _ => rfl⟩

theorem tok_string (s : String) : X.TOk XText.string s ↔ XString s := by
  simp [X.TOk, XText.string, sanitize_eq]
theorem tok_ref (s : BOMReference) : X.TOk XText.bomReference s ↔ XString s.val := by
  cases s; simp [X.TOk, XText.bomReference, sanitize_eq]
theorem tok_int (i : Int) : X.TOk XText.int i ↔ InInt64 i := by simp [X.TOk, XText.int]
theorem tok_bool (i : Bool) : X.TOk XText.bool i ↔ True := by simp [X.TOk, XText.bool]
theorem tok_f32 (x : F32) : X.TOk XText.f32 x ↔ x.XPlain := by simp [X.TOk, XText.f32, f32_canon]
theorem tok_f64 (x : F64) : X.TOk XText.f64 x ↔ x.XPlain := by simp [X.TOk, XText.f64, f64_canon]

/-- Leaving out an empty value does not change it. -/
theorem aok_of {α : Type} {c : XText α} (h : ∀ a, c.empty a = true → a = c.zero) (hz : X.TOk c c.zero) (oe : Bool)
    (a : α) : X.AOk oe c a ↔ X.TOk c a := by
  unfold X.AOk
  by_cases e : (oe && c.empty a) = true
  · simp only [e, if_true]
    have ha := h a (by simp_all)
    rw [ha]
    simp only [X.TOk] at hz ⊢
    simp [hz]
  · simp only [e]; exact Iff.rfl

theorem aok_string (oe : Bool) (s : String) : X.AOk oe XText.string s ↔ XString s :=
  (aok_of (fun a h => by simpa [XText.string] using h) ⟨rfl, trivial⟩ oe s).trans (tok_string s)
theorem aok_ref (oe : Bool) (s : BOMReference) : X.AOk oe XText.bomReference s ↔ XString s.val :=
  (aok_of (fun a h => by cases a; simpa [XText.bomReference] using h) ⟨rfl, trivial⟩ oe s).trans (tok_ref s)
theorem aok_int (oe : Bool) (i : Int) : X.AOk oe XText.int i ↔ InInt64 i :=
  (aok_of (fun a h => by simpa [XText.int] using h) ⟨rfl, by simp [XText.int, InInt64]⟩ oe i).trans (tok_int i)
theorem aok_bool (oe : Bool) (i : Bool) : X.AOk oe XText.bool i ↔ True :=
  (aok_of (fun a h => by simpa [XText.bool] using h) ⟨rfl, trivial⟩ oe i).trans (tok_bool i)
theorem aok_f32 (x : F32) : X.AOk false XText.f32 x ↔ x.XPlain := by
  rw [← tok_f32]; simp [X.AOk, X.TOk]

/-! ### Elements -/

instance {σ β : Type} (F : XFields β) (toP : σ → β) (ofP : β → σ) : XNonEmpty (XCodec.struct F toP ofP) :=
  ⟨fun _ => rfl⟩
instance {σ β : Type} (F : XFields β) (toP : σ → β) (ofP : β → σ) : XAlways (XCodec.struct F toP ofP) :=
  ⟨fun _ => rfl⟩

theorem xok_text {α : Type} (c : XText α) (a : α) : X.Ok (XCodec.simple c) a ↔ X.TOk c a := by
  simp [X.Ok, X.TOk, XCodec.simple]

theorem xok_ref (r : BOMReference) : X.Ok X.bomReference r ↔ XString r.val := by
  cases r
  simp [X.Ok, X.bomReference, X.fresh, XCodec.struct, X.bomReferenceFields, XFields.norm, XFields.good, XText.string,
    sanitize_eq]

theorem eok_string (s : String) : X.EOk true X.string s ↔ s ≠ "" ∧ XString s := by
  simp only [X.EOk, xok_text, tok_string]
  simp [XCodec.simple, XText.string]
theorem eok_int (s : Int) : X.EOk true X.int s ↔ s ≠ 0 ∧ InInt64 s := by
  simp only [X.EOk, xok_text, tok_int]
  simp [XCodec.simple, XText.int]
theorem eok_ref (s : BOMReference) : X.EOk true X.bomReference s ↔ s.val ≠ "" ∧ XString s.val := by
  simp only [X.EOk, xok_ref]
  simp [X.bomReference]
theorem eok_of {α : Type} (oe : Bool) (c : XCodec α) [N : XNonEmpty c] (a : α) : X.EOk oe c a ↔ X.Ok c a := by
  simp [X.EOk, N.empty]

/-! ### Fields -/

theorem fok_plain_simple {α : Type} (n : String) (oe : Bool) (c : XText α) (a : α) :
    X.FOk (XField.plain n oe (XCodec.simple c)) a ↔ X.AOk oe c a := by
  simp [X.FOk, X.AOk, XField.plain, XCodec.simple]

theorem fok_plain_ref (n : String) (oe : Bool) (r : BOMReference) :
    X.FOk (XField.plain n oe X.bomReference) r ↔ XString r.val := by
  have h := xok_ref r
  simp only [X.Ok] at h
  cases r with | mk s =>
  by_cases hs : s = ""
  · subst hs
    have : XString "" := by simp [XString]
    simp only [this, iff_true]
    exact ⟨by simp [XField.plain, X.bomReference, X.fresh, XCodec.struct, X.bomReferenceFields, XFields.zero,
      XFields.norm, XText.string], by simp [XField.plain, X.bomReference, X.fresh, XCodec.struct, X.bomReferenceFields,
      XFields.good, XText.string]⟩
  · rw [← h]
    simp [X.FOk, XField.plain, X.bomReference, hs, X.fresh, XCodec.struct]

theorem fok_plain_struct {α : Type} (n : String) (oe : Bool) (c : XCodec α) [N : XNonEmpty c] [A : XAlways c] (a : α) :
    X.FOk (XField.plain n oe c) a ↔ X.Ok c a := by
  simp [X.FOk, X.Ok, XField.plain, N.empty, A.writes]

theorem fok_ptr {α : Type} (n : String) (c : XCodec α) (o : Option α) :
    X.FOk (XField.ptr n c) o ↔ ∀ a ∈ o, X.Ok c a := by
  cases o with
  | none => simp [X.FOk, XField.ptr]
  | some a =>
    simp only [X.FOk, X.Ok, XField.ptr, Option.mem_some_iff, forall_eq']
    cases c.writes a <;> simp

theorem normList_eq {α : Type} (oe : Bool) (c : XCodec α) (as : List α) :
    XField.normList oe c as = as ∧ (∀ a ∈ as, c.good a) ↔ ∀ a ∈ as, X.EOk oe c a := by
  have hlen : ∀ as : List α, (XField.normList oe c as).length ≤ as.length := fun as => by
    simp only [XField.normList, List.length_map]; exact List.length_filter_le _ _
  induction as with
  | nil => simp [XField.normList]
  | cons a as ih =>
    have hl := hlen as
    simp only [List.forall_mem_cons, ← ih]
    simp only [XField.normList, List.filter_cons] at hl ⊢
    by_cases h : (oe && c.empty a) = false ∧ c.writes a = true
    · simp only [h.1, h.2, Bool.not_true, Bool.or_false, Bool.not_false, if_true, List.map_cons, List.cons.injEq,
        X.EOk, X.Ok]
      simp only [true_and]
      exact ⟨fun ⟨⟨h1, h2⟩, h3, h4⟩ => ⟨⟨h1, h3⟩, h2, h4⟩, fun ⟨⟨h1, h3⟩, h2, h4⟩ => ⟨⟨h1, h2⟩, h3, h4⟩⟩
    · constructor
      · intro ⟨h1, _⟩
        exfalso
        have h2 : (!(oe && c.empty a || !c.writes a)) = false := by
          cases h3 : (oe && c.empty a) <;> cases h4 : c.writes a <;> simp_all
        rw [h2] at h1
        have := congrArg List.length h1
        simp only [Bool.false_eq_true, if_false, List.length_cons] at this
        omega
      · intro ⟨h1, _⟩
        exact absurd ⟨h1.1, h1.2.1⟩ h

theorem ofList_eq {α : Type} {as : List α} {p : PSlice α} :
    XField.ofList as = p ↔ (as = [] ∧ p = .nil) ∨ (as ≠ [] ∧ p = .list as) := by
  cases as with
  | nil => simp [XField.ofList, eq_comm]
  | cons a as => simp [XField.ofList, eq_comm]

theorem ofList_normList {α : Type} (oe : Bool) (c : XCodec α) (p : PSlice α) :
    XField.ofList (XField.normList oe c p.elems) = p ∧ (∀ a ∈ p.elems, c.good a) ↔ p.XEach fun a => X.EOk oe c a := by
  cases p with
  | nil => simp [PSlice.elems, PSlice.XEach, XField.normList, XField.ofList]
  | nilSlice => simp [PSlice.elems, PSlice.XEach, XField.normList, XField.ofList]
  | list as =>
    simp only [PSlice.elems, PSlice.XEach, ← normList_eq, ofList_eq, PSlice.list.injEq, reduceCtorEq, and_false, false_or]
    constructor
    · rintro ⟨⟨h1, h2⟩, h3⟩; exact ⟨h2 ▸ h1, h2.symm, h3⟩
    · rintro ⟨h1, h2, h3⟩; exact ⟨⟨by rw [h2]; exact h1, h2.symm⟩, h3⟩

theorem fok_list {α : Type} (n : String) (oe : Bool) (c : XCodec α) (p : PSlice α) :
    X.FOk (XField.list n oe c) p ↔ p.XEach fun a => X.EOk oe c a := ofList_normList oe c p

theorem fok_nlist_of {α : Type} (q n : String) (oe : Bool) (c : XCodec α) (h : c.rename n = n) (p : PSlice α) :
    X.FOk (XField.nlist q n oe c) p ↔ p.XEach fun a => X.EOk oe c a := by
  rw [← ofList_normList]
  simp only [X.FOk, XField.nlist, h, if_true]

theorem fok_nlist {α : Type} (q n : String) (oe : Bool) (c : XCodec α) [N : XNamed c] (p : PSlice α) :
    X.FOk (XField.nlist q n oe c) p ↔ p.XEach fun a => X.EOk oe c a := fok_nlist_of q n oe c (N.rename n) p

theorem fok_dataflow (q : String) (oe : Bool) (p : PSlice DataClassification) :
    X.FOk (XField.nlist q "dataflow" oe X.dataClassification) p ↔ p.XEach fun a => X.EOk oe X.dataClassification a :=
  fok_nlist_of q "dataflow" oe X.dataClassification rfl p

theorem fok_evidenceData (q : String) (o : Option DataClassification) :
    X.FOk (XField.nptr q "classification" X.dataClassification) o ↔ o = none := by
  cases o <;> simp [X.FOk, XField.nptr, X.dataClassification]

theorem fok_slice {α : Type} (n : String) (c : XCodec (List α)) (p : PSlice α) (P : α → Prop)
    (h : ∀ as, X.Ok c as ↔ as ≠ [] ∧ ∀ a ∈ as, P a) : X.FOk (XField.slice n c) p ↔ p.XEach P ∧ (p = .nil → c.good []) := by
  cases p with
  | nil => simp [X.FOk, XField.slice, PSlice.XEach, PSlice.elems]
  | nilSlice =>
    simp only [X.FOk, XField.slice, PSlice.XEach, PSlice.elems]
    by_cases hw : c.writes [] = true <;> simp [hw]
  | list as =>
    simp only [PSlice.XEach, ← h, X.FOk, XField.slice, PSlice.elems, X.Ok, reduceCtorEq, false_imp_iff, and_true]
    by_cases hw : c.writes as = true <;> simp [hw]

/-! ### Structs -/

theorem xokF_nil (b : Unit) : X.OkF .nil b ↔ True := by simp [X.OkF, XFields.norm, XFields.good]
theorem xokF_skip {α β : Type} (z : α) (F : XFields β) (b : α × β) :
    X.OkF (.skip z F) b ↔ b.1 = z ∧ X.OkF F b.2 := by
  obtain ⟨x, y⟩ := b
  simp only [X.OkF, XFields.norm, XFields.good, Prod.mk.injEq]
  exact ⟨fun h => ⟨h.1.1.symm, h.1.2, h.2⟩, fun h => ⟨⟨h.1.symm, h.2.1⟩, h.2.2⟩⟩
theorem xokF_attr {α β : Type} (n : String) (oe : Bool) (c : XText α) (F : XFields β) (b : α × β) :
    X.OkF (.attr n oe c F) b ↔ X.AOk oe c b.1 ∧ X.OkF F b.2 := by
  obtain ⟨x, y⟩ := b
  simp only [X.OkF, X.AOk, XFields.norm, XFields.good, Prod.mk.injEq]
  exact ⟨fun h => ⟨⟨h.1.1, h.2.1⟩, h.1.2, h.2.2⟩, fun h => ⟨⟨h.1.1, h.2.1⟩, h.1.2, h.2.2⟩⟩
theorem xokF_attrPtr {α β : Type} (n : String) (c : XText α) (F : XFields β) (b : Option α × β) :
    X.OkF (.attrPtr n c F) b ↔ (∀ a ∈ b.1, X.TOk c a) ∧ X.OkF F b.2 := by
  obtain ⟨x, y⟩ := b
  cases x
  · simp [X.OkF, X.TOk, XFields.norm, XFields.good, Prod.mk.injEq]
  · simp only [X.OkF, X.TOk, XFields.norm, XFields.good, Prod.mk.injEq, Option.map_some, Option.some.injEq,
      Option.mem_some_iff, forall_eq']
    exact ⟨fun h => ⟨⟨h.1.1, h.2.1⟩, h.1.2, h.2.2⟩, fun h => ⟨⟨h.1.1, h.2.1⟩, h.1.2, h.2.2⟩⟩
theorem xokF_chardata {β : Type} (F : XFields β) (b : String × β) :
    X.OkF (.chardata F) b ↔ XString b.1 ∧ X.OkF F b.2 := by
  obtain ⟨x, y⟩ := b
  simp only [X.OkF, XFields.norm, XFields.good, Prod.mk.injEq, sanitize_eq, and_assoc]
theorem xokF_elem {α β : Type} (f : XField α) (F : XFields β) (b : α × β) :
    X.OkF (.elem f F) b ↔ X.FOk f b.1 ∧ X.OkF F b.2 := by
  obtain ⟨x, y⟩ := b
  simp only [X.OkF, X.FOk, XFields.norm, XFields.good, Prod.mk.injEq]
  exact ⟨fun h => ⟨⟨h.1.1, h.2.1⟩, h.1.2, h.2.2⟩, fun h => ⟨⟨h.1.1, h.2.1⟩, h.1.2, h.2.2⟩⟩

theorem xok_struct {σ β : Type} (F : XFields β) (toP : σ → β) (ofP : β → σ) (h1 : ∀ s, ofP (toP s) = s)
    (h2 : ∀ p, toP (ofP p) = p) (s : σ) : X.Ok (XCodec.struct F toP ofP) s ↔ X.OkF F (toP s) := by
  simp only [X.Ok, X.OkF, XCodec.struct, true_and]
  refine and_congr_left fun _ => ⟨fun h => ?_, fun h => ?_⟩
  · rw [← h2 (F.norm (toP s)), h]
  · rw [h, h1]

theorem XSameAt.ok {α : Type} {C D : XCodec α} {a : α} (h : XSameAt C D a) : X.Ok C a ↔ X.Ok D a := by
  simp only [X.Ok, h.norm, h.good, h.writes]

theorem PSlice.xeach_congr {α : Type} {P Q : α → Prop} {p : PSlice α} (h : ∀ a ∈ p.elems, (P a ↔ Q a)) :
    p.XEach P ↔ p.XEach Q := by
  cases p with
  | nil => exact Iff.rfl
  | nilSlice => exact Iff.rfl
  | list as => exact and_congr_right fun _ => forall₂_congr h

theorem flatMap_eq_self {α : Type} {f : α → List α} (hf : ∀ a, (f a).length ≤ 1) (as : List α) :
    as.flatMap f = as ↔ ∀ a ∈ as, f a = [a] := by
  have hlen : ∀ as : List α, (as.flatMap f).length ≤ as.length := by
    intro as
    induction as with
    | nil => simp
    | cons a as ih => have := hf a; simp only [List.flatMap_cons, List.length_append, List.length_cons]; omega
  induction as with
  | nil => simp
  | cons a as ih =>
    simp only [List.flatMap_cons, List.forall_mem_cons, ← ih]
    have h1 := hf a
    have h2 := hlen as
    cases hfa : f a with
    | nil =>
      simp only [List.nil_append, reduceCtorEq, false_and, iff_false]
      intro e
      have := congrArg List.length e
      simp only [List.length_cons] at this
      omega
    | cons b bs =>
      rw [hfa] at h1
      have : bs = [] := by cases bs with | nil => rfl | cons _ _ => simp at h1
      subst this
      simp

theorem xeach_flatMap {α : Type} {f : α → List α} {P Q : α → Prop} (hf : ∀ a, (f a).length ≤ 1)
    (h : ∀ a, f a = [a] ∧ Q a ↔ P a) (p : PSlice α) :
    XField.ofList (p.elems.flatMap f) = p ∧ (∀ a ∈ p.elems, Q a) ↔ p.XEach P := by
  have key : ∀ as : List α, as.flatMap f = as ∧ (∀ a ∈ as, Q a) ↔ ∀ a ∈ as, P a := by
    intro as
    rw [flatMap_eq_self hf]
    exact ⟨fun h' a ha => (h a).1 ⟨h'.1 a ha, h'.2 a ha⟩,
      fun h' => ⟨fun a ha => ((h a).2 (h' a ha)).1, fun a ha => ((h a).2 (h' a ha)).2⟩⟩
  cases p with
  | nil => simp [PSlice.elems, PSlice.XEach, XField.ofList]
  | nilSlice => simp [PSlice.elems, PSlice.XEach, XField.ofList]
  | list as =>
    simp only [PSlice.elems, PSlice.XEach, ← key, ofList_eq, PSlice.list.injEq, reduceCtorEq, and_false, false_or]
    constructor
    · rintro ⟨⟨h1, h2⟩, h3⟩; exact ⟨h2 ▸ h1, h2.symm, h3⟩
    · rintro ⟨h1, h2, h3⟩; exact ⟨⟨by rw [h2]; exact h1, h2.symm⟩, h3⟩

theorem xeach_map {α : Type} {f : α → α} {P Q : α → Prop} (h : ∀ a, f a = a ∧ Q a ↔ P a) (p : PSlice α) :
    XField.ofList (p.elems.map f) = p ∧ (∀ a ∈ p.elems, Q a) ↔ p.XEach P := by
  have := xeach_flatMap (f := fun a => [f a]) (P := P) (Q := Q) (fun _ => by simp) (fun a => by simpa using h a) p
  have e : ∀ as : List α, as.flatMap (fun a => [f a]) = as.map f := by
    intro as
    induction as with
    | nil => rfl
    | cons a as ih => simp [List.flatMap_cons, ih]
  rwa [e] at this

theorem xeach_strings (p : PSlice String) : XField.ofList (p.elems.map sanitize) = p ↔ p.XEach XString := by
  have := xeach_map (f := sanitize) (P := XString) (Q := fun _ => True) (fun a => by simp [sanitize_eq]) p
  simpa using this

theorem xok_dependencyRef (s : String) : X.Ok X.dependencyRef s ↔ XString s := by
  simp [X.Ok, X.dependencyRef, XCodec.struct, X.bomReferenceFields, XFields.norm, XFields.good, XText.string, sanitize_eq]

instance : XNonEmpty X.dependencyRef := ⟨fun _ => rfl⟩
'''

def two(T, k, a, b, A, B, key, nq):
    return f'''instance : XNonEmpty X.{k} := ⟨fun _ => rfl⟩

theorem xok_{k} (x : {T}) : X.Ok X.{k} x ↔ x.XPlain := by
  obtain ⟨p, q⟩ := x
  cases p with
  | some p =>
    obtain ⟨a, b⟩ := p
    by_cases ha : a = ""
    · cases q <;> simp [X.Ok, X.{k}, {T}.XPlain, sanitize_eq, ha]
      all_goals
        intro p h1 _ _ h2
        subst h2
        exact h1 rfl
    · cases q <;> simp [X.Ok, X.{k}, {T}.XPlain, sanitize_eq, ha]
      constructor
      · intro h; exact ⟨⟨a, b⟩, ha, h.1, h.2, rfl⟩
      · rintro ⟨p, _, h1, h2, rfl⟩; exact ⟨h1, h2⟩
  | none =>
    cases q with
    | some q =>
      obtain ⟨{', '.join('q%d' % i for i in range(nq))}⟩ := q
      simp [X.Ok, X.{k}, {T}.XPlain, sanitize_eq]
      {'grind' if nq == 3 else ''}
    | none => simp [X.Ok, X.{k}, {T}.XPlain]
'''
LAW['CertificateState'] = two('CertificateState', 'certificateState', 'predefined', 'custom', '', '', 'state', 3)
LAW['CertificateExtension'] = two('CertificateExtension', 'certificateExtension', 'common', 'custom', '', '', 'name', 2)
LAW['Copyright'] = '''instance : XNonEmpty X.copyright := ⟨fun _ => rfl⟩

theorem xok_copyright (x : Copyright) : X.Ok X.copyright x ↔ x.XPlain := by
  cases x; simp [X.Ok, X.copyright, Copyright.XPlain, sanitize_eq]
'''
LAW['LicenseChoice'] = '''instance : XNonEmpty X.licenseExpressionDetail := ⟨fun _ => rfl⟩

theorem xok_licenseExpressionDetail (x : LicenseExpressionDetail) :
    X.Ok X.licenseExpressionDetail x ↔ x.XPlain := by
  have h : X.OkF X.licenseExpressionDetailFields (x.licenseIdentifier, x.text, x.url, ()) ↔
      XString x.licenseIdentifier ∧ (∀ y ∈ x.text, AttachedText.XPlain y) ∧ XString x.url := by
    simp only [X.licenseExpressionDetailFields, @ROK@, @FOK@, xok_attachedText, and_true]
  rw [LicenseExpressionDetail.XPlain, ← h]
  obtain ⟨i, r, t, u⟩ := x
  simp only [X.Ok, X.OkF, X.licenseExpressionDetail, XCodec.struct, true_and]
  rw [← and_assoc]
  refine and_congr_left fun _ => ?_
  generalize X.licenseExpressionDetailFields.norm _ = p
  obtain ⟨p1, p2, p3, ⟨⟩⟩ := p
  simp only [Prod.mk.injEq, LicenseExpressionDetail.mk.injEq, and_true]
  grind

theorem xok_licenseChoice (x : LicenseChoice) :
    X.licenseChoiceNorm x = [x] ∧ (∀ m ∈ x.license, X.license.good m) ↔ x.XPlain := by
  have hd : XField.ofList (XField.normList false X.licenseExpressionDetail x.expressionDetails.elems) = x.expressionDetails ↔
      x.expressionDetails.XEach LicenseExpressionDetail.XPlain := by
    have := ofList_normList false X.licenseExpressionDetail x.expressionDetails
    simp only [eok_of, xok_licenseExpressionDetail] at this
    rw [← this]
    exact ⟨fun h => ⟨h, fun a _ => licenseExpressionDetail_good a⟩, fun h => h.1⟩
  obtain ⟨l, e, d, a, r, g, ps⟩ := x
  cases l with
  | some l =>
    have hl := xok_license l
    simp only [X.Ok] at hl
    have hw : X.license.writes l = true := rfl
    simp only [hw, true_and] at hl
    simp only [X.licenseChoiceNorm, LicenseChoice.XPlain, ← hl]
    simp
    grind
  | none =>
    simp only at hd
    simp only [X.licenseChoiceNorm, LicenseChoice.XPlain]
    by_cases he : e = ""
    · simp [he]
    · have hk : (if sanitize (a.getD "") ≠ "" then some (sanitize (a.getD "")) else none) = a ↔
          ∀ b ∈ a, b ≠ "" ∧ XString b := by
        cases a with
        | none => simp
        | some a =>
          by_cases ha : a = ""
          · simp [ha]
          · simp [sanitize_eq, sanitize_eq_empty, ha]
      rw [if_pos he]
      simp only [X.expressionChoice, hk, List.cons.injEq, and_true, LicenseChoice.mk.injEq, true_and, ← hd, sanitize_eq]
      constructor
      · rintro ⟨⟨h1, h2, h3, h4, h5, h6⟩, _⟩
        exact .inr ⟨he, h1, h4, h3, h2, h5.symm, h6.symm⟩
      · rintro (⟨l, _, h⟩ | ⟨_, h1, h4, h3, h2, h5, h6⟩)
        · cases h.1
        · exact ⟨⟨h1, h2, h3, h4, h5.symm, h6.symm⟩, by simp⟩

theorem licenseChoiceNorm_length (x : LicenseChoice) : (X.licenseChoiceNorm x).length ≤ 1 := by
  unfold X.licenseChoiceNorm
  split
  · simp
  · split <;> simp

theorem xok_licenses (ls : List LicenseChoice) : X.Ok X.licenses ls ↔ ls ≠ [] ∧ ∀ l ∈ ls, LicenseChoice.XPlain l := by
  simp only [X.Ok, X.licenses, flatMap_eq_self licenseChoiceNorm_length, ← xok_licenseChoice]
  refine and_congr (by simp) ⟨fun h l hl => ⟨h.1 l hl, h.2 l hl⟩, fun h => ⟨fun l hl => (h l hl).1, fun l hl => (h l hl).2⟩⟩

theorem fok_licenses (n : String) (p : PSlice LicenseChoice) :
    X.FOk (XField.slice n X.licenses) p ↔ p.XEach LicenseChoice.XPlain := by
  rw [fok_slice n X.licenses p _ xok_licenses]
  simp [X.licenses]
'''
LAW['LicenseExpressionDetail'] = ''
LAW['EnvironmentVariableChoice'] = '''theorem xok_environmentVariableChoice (x : EnvironmentVariableChoice) :
    X.environmentVariableNorm x = [x] ↔ x.XPlain := by
  obtain ⟨p, v⟩ := x
  cases p with
  | some p =>
    have hp := xok_property p
    simp only [X.Ok] at hp
    have hw : X.property.writes p = true ∧ X.property.good p := ⟨rfl, by simp [X.property, XCodec.struct, X.propertyFields, XFields.good, XText.string]⟩
    simp only [hw.1, hw.2, true_and, and_true] at hp
    simp only [X.environmentVariableNorm, EnvironmentVariableChoice.XPlain, ← hp]
    simp
    grind
  | none =>
    by_cases hv : v = ""
    · simp [X.environmentVariableNorm, EnvironmentVariableChoice.XPlain, hv]
    · simp [X.environmentVariableNorm, EnvironmentVariableChoice.XPlain, hv, sanitize_eq]

theorem environmentVariableNorm_length (x : EnvironmentVariableChoice) : (X.environmentVariableNorm x).length ≤ 1 := by
  unfold X.environmentVariableNorm
  split
  · simp
  · split <;> simp

theorem xok_environmentVariables (ls : List EnvironmentVariableChoice) :
    X.Ok X.environmentVariables ls ↔ ls ≠ [] ∧ ∀ l ∈ ls, EnvironmentVariableChoice.XPlain l := by
  simp only [X.Ok, X.environmentVariables, flatMap_eq_self environmentVariableNorm_length, ← xok_environmentVariableChoice]
  simp

theorem fok_environmentVariables (n : String) (p : PSlice EnvironmentVariableChoice) :
    X.FOk (XField.slice n X.environmentVariables) p ↔ p.XEach EnvironmentVariableChoice.XPlain := by
  rw [fok_slice n X.environmentVariables p _ xok_environmentVariables]
  simp [X.environmentVariables]
'''
LAW['MLDatasetChoice'] = '''instance : XNonEmpty X.mlDatasetChoice := ⟨fun _ => rfl⟩

theorem xok_mlDatasetChoice (x : MLDatasetChoice) : X.Ok X.mlDatasetChoice x ↔ x.XPlain := by
  obtain ⟨r, d⟩ := x
  by_cases hr : r = ""
  · cases d with
    | none => simp [X.Ok, X.mlDatasetChoice, MLDatasetChoice.XPlain, hr]
    | some d =>
      have h := xok_componentData d
      simp only [X.Ok] at h
      have hw : X.componentData.writes d = true := rfl
      simp only [hw, true_and] at h
      by_cases hz : (X.componentData.norm d).isZero = true
      · have hz' := (ComponentData.isZero_iff _).1 hz
        simp only [X.Ok, X.mlDatasetChoice, MLDatasetChoice.XPlain, hr, hz, ← h]
        simp
        intro hp
        rw [← (h.2 hp).1]; exact hz'
      · have hne : X.componentData.norm d = d → d ≠ {} := by
          intro e e'
          apply hz
          rw [e, e']; rfl
        simp only [X.Ok, X.mlDatasetChoice, MLDatasetChoice.XPlain, hr, hz, ← h]
        simp
        grind
  · cases d <;> simp [X.Ok, X.mlDatasetChoice, MLDatasetChoice.XPlain, hr, sanitize_eq]
'''
LAW['AsserterChoice'] = '''instance : XNonEmpty X.asserterChoice := ⟨fun _ => rfl⟩

theorem xok_asserterChoice (x : AsserterChoice) : X.Ok X.asserterChoice x ↔ x.XPlain := by
  obtain ⟨o, i, r⟩ := x
  cases o with
  | some o =>
    have h := xok_organizationalEntity o
    simp only [X.Ok, show X.organizationalEntity.writes o = true from rfl, true_and] at h
    cases i <;> cases r <;> simp [X.Ok, X.asserterChoice, AsserterChoice.XPlain, ← h] <;> grind
  | none =>
    cases i with
    | some i =>
      have h := xok_organizationalContact i
      simp only [X.Ok, show X.organizationalContact.writes i = true from rfl, true_and] at h
      cases r <;> simp [X.Ok, X.asserterChoice, AsserterChoice.XPlain, ← h] <;> grind
    | none =>
      cases r with
      | none => simp [X.Ok, X.asserterChoice, AsserterChoice.XPlain]
      | some r =>
        have h := xok_ref r
        simp only [X.Ok, show X.bomReference.writes r = true from rfl, true_and] at h
        have hg : X.bomReference.good r := by simp [X.bomReference, X.fresh, XCodec.struct, X.bomReferenceFields, XFields.good, XText.string]
        simp only [hg, and_true] at h
        simp [X.Ok, X.asserterChoice, AsserterChoice.XPlain, ← h]
'''
LAW['DataClassification'] = '''instance : XNonEmpty X.dataClassification := ⟨fun _ => rfl⟩

theorem xok_dataClassification (x : DataClassification) : X.Ok X.dataClassification x ↔ x.XPlain := by
  obtain ⟨f, c, n, d, g, s, t⟩ := x
  have hg : (g.map X.dataGovernance.norm = g ∧ ∀ g' ∈ g, X.dataGovernance.good g') ↔ ∀ g' ∈ g, g'.XPlain := by
    cases g with
    | none => simp
    | some g =>
      have h := xok_dataGovernance g
      simp only [X.Ok, show X.dataGovernance.writes g = true from rfl, true_and] at h
      simp [← h]
  simp only [X.Ok, X.dataClassification, DataClassification.XPlain, DataClassification.mk.injEq, sanitize_eq, ← hg,
    ← xeach_strings, true_and]
  grind
'''
LAW['PatentChoice'] = ''
LAW['Definitions'] = '''instance : XNonEmpty X.definitions := ⟨fun _ => rfl⟩

theorem patentChoiceNorm_length (x : PatentChoice) : (X.patentChoiceNorm x).length ≤ 1 := by
  unfold X.patentChoiceNorm
  split <;> simp

theorem xok_patentChoice (x : PatentChoice) :
    X.patentChoiceNorm x = [x] ∧ ((∀ p ∈ x.patent, X.patent.good p) ∧ (∀ f ∈ x.patentFamily, X.patentFamily.good f)) ↔
      x.XPlain := by
  obtain ⟨p, f⟩ := x
  cases p with
  | some p =>
    have h := xok_patent p
    simp only [X.Ok, show X.patent.writes p = true from rfl, true_and] at h
    cases f <;> simp [X.patentChoiceNorm, PatentChoice.XPlain, ← h] <;> grind
  | none =>
    cases f with
    | some f =>
      have h := xok_patentFamily f
      simp only [X.Ok, show X.patentFamily.writes f = true from rfl, true_and] at h
      simp [X.patentChoiceNorm, PatentChoice.XPlain, ← h]
    | none => simp [X.patentChoiceNorm, PatentChoice.XPlain]

theorem xok_definitions (x : Definitions) : X.Ok X.definitions x ↔ x.XPlain := by
  have h1 := xeach_flatMap patentChoiceNorm_length xok_patentChoice x.patents
  have h2 := xeach_map (f := X.standardDefinition.norm) (Q := X.standardDefinition.good) (P := StandardDefinition.XPlain)
    (fun s => by
      have h := xok_standardDefinition s
      simpa only [X.Ok, show X.standardDefinition.writes s = true from rfl, true_and] using h) x.standards
  rw [Definitions.XPlain, ← h1, ← h2]
  obtain ⟨s, p⟩ := x
  simp only [X.Ok, X.definitions, Definitions.mk.injEq, true_and]
  grind
'''
LAW['Dependency'] = '''instance : XNonEmpty X.dependency := ⟨fun _ => rfl⟩

theorem xok_dependency (x : Dependency) : X.Ok X.dependency x ↔ x.XPlain := by
  show X.Ok (XCodec.struct X.dependencyFields Dependency.toP Dependency.ofP) x ↔ _
  rw [xok_struct X.dependencyFields _ _ (fun _ => rfl) (fun _ => rfl)]
  simp only [X.dependencyFields, @ROK@, Dependency.toP, Dependency.XPlain, @FOK@, xok_dependencyRef, and_true]
'''
LAW['Evidence'] = '''instance : XNonEmpty X.evidence := ⟨fun _ => rfl⟩

theorem xok_evidenceIdentities (o : Option EvidenceIdentityChoice) :
    ((match XField.normList true X.evidenceIdentity (X.evidenceIdentities { identity := o }).elems with
        | [] => none
        | is => some ({ identities := .list is } : EvidenceIdentityChoice)) = o ∧
      ∀ a ∈ (X.evidenceIdentities { identity := o }).elems, X.evidenceIdentity.good a) ↔
    (∀ i ∈ o, i.identity = none ∧ i.identities ≠ .nil ∧ i.identities.XEach EvidenceIdentity.XPlain) := by
  cases o with
  | none => simp [X.evidenceIdentities, XField.normList, PSlice.elems]
  | some c =>
    obtain ⟨i, l⟩ := c
    have key : ∀ as : List EvidenceIdentity,
        XField.normList true X.evidenceIdentity as = as ∧ (∀ a ∈ as, X.evidenceIdentity.good a) ↔
          ∀ a ∈ as, a.XPlain := by
      intro as
      rw [normList_eq]
      simp only [eok_of, xok_evidenceIdentity]
    cases l with
    | nil =>
      simp only [X.evidenceIdentities, PSlice.isNil]
      simp
      intro h
      exfalso
      split at h
      · cases h
      · simp at h
    | nilSlice =>
      simp [X.evidenceIdentities, PSlice.isNil, XField.normList, PSlice.elems, PSlice.XEach]
    | list as =>
      have he : (X.evidenceIdentities { identity := some { identity := i, identities := .list as } }).elems = as := rfl
      simp only [he, PSlice.XEach, ← key, Option.mem_some_iff, forall_eq', ne_eq, reduceCtorEq, not_false_eq_true, true_and]
      constructor
      · rintro ⟨h1, h2⟩
        split at h1
        · cases h1
        · rename_i hne
          simp only [Option.some.injEq, EvidenceIdentityChoice.mk.injEq, PSlice.list.injEq] at h1
          refine ⟨h1.1.symm, ?_, h1.2, h2⟩
          intro e
          rw [h1.2] at hne
          exact hne e
      · rintro ⟨rfl, h1, h2, h3⟩
        refine ⟨?_, h3⟩
        rw [h2]
        cases as with
        | nil => exact absurd rfl h1
        | cons a as => rfl

theorem xok_evidence (x : Evidence) : X.Ok X.evidence x ↔ x.XPlain := by
  obtain ⟨i, o, c, l, t⟩ := x
  have h1 := xok_evidenceIdentities i
  have h2 := ofList_normList true X.evidenceOccurrence o
  have h3 := ofList_normList true X.copyright t
  have h4 : XField.ofList (X.licenses.norm l.elems) = l ∧ X.licenses.good l.elems ↔ l.XEach LicenseChoice.XPlain :=
    xeach_flatMap licenseChoiceNorm_length xok_licenseChoice l
  have h5 : (X.callstackNorm c = c ∧ (∀ a ∈ c, X.callstack.good a)) ↔ ∀ a ∈ c, a.frames ≠ .nil ∧ a.XPlain := by
    cases c with
    | none => simp [X.callstackNorm]
    | some c =>
      have h := xok_callstack c
      simp only [X.Ok, show X.callstack.writes c = true from rfl, true_and] at h
      have hn : ∀ p : PSlice CallstackFrame, p.isNil = true ↔ p = .nil := by intro p; cases p <;> simp [PSlice.isNil]
      simp only [X.callstackNorm, hn, ← h]
      simp
      grind
  have h6 : X.evidence.writes ⟨i, o, c, l, t⟩ = true ↔ (⟨i, o, c, l, t⟩ : Evidence) ≠ {} := by
    have hn : ∀ {α : Type} (p : PSlice α), p.isNil = true ↔ p = .nil := by intro _ p; cases p <;> simp [PSlice.isNil]
    simp only [X.evidence, Bool.not_eq_true', ne_eq, Evidence.mk.injEq, ← Bool.not_eq_true, Bool.and_eq_true, hn,
      Option.isNone_iff_eq_none]
    grind
  have h3' : X.copyright.writes = fun _ => true := rfl
  simp only [eok_of, xok_evidenceOccurrence, xok_copyright] at h2 h3
  rw [Evidence.XPlain, ← h6, ← h1, ← h2, ← h3, ← h4, ← h5]
  have hgood : X.evidence.good ⟨i, o, c, l, t⟩ ↔
      (∀ a ∈ (X.evidenceIdentities { identity := i }).elems, X.evidenceIdentity.good a) ∧
      (∀ a ∈ o.elems, X.evidenceOccurrence.good a) ∧ (∀ a ∈ c, X.callstack.good a) ∧ X.licenses.good l.elems ∧
      (∀ a ∈ t.elems, X.copyright.good a) := by
    simp [X.evidence, X.evidenceFields, XFields.good, XField.list, XField.nlist, XField.ptr, XField.slice]
    intros
    exact Iff.rfl
  have hnorm : X.evidence.norm ⟨i, o, c, l, t⟩ = ⟨i, o, c, l, t⟩ ↔
      (match XField.normList true X.evidenceIdentity (X.evidenceIdentities { identity := i }).elems with
        | [] => none
        | is => some ({ identities := .list is } : EvidenceIdentityChoice)) = i ∧
      XField.ofList (XField.normList true X.evidenceOccurrence o.elems) = o ∧ X.callstackNorm c = c ∧
      XField.ofList (X.licenses.norm l.elems) = l ∧
      XField.ofList (XField.normList true X.copyright t.elems) = t := by
    simp only [X.evidence, Evidence.mk.injEq]
    rfl
  rw [X.Ok, hgood, hnorm]
  constructor
  · rintro ⟨hw, ⟨a1, a2, a3, a4, a5⟩, b1, b2, b3, b4, b5⟩
    exact ⟨hw, ⟨a1, b1⟩, ⟨a2, b2⟩, ⟨a3, b3⟩, ⟨a4, b4⟩, a5, b5⟩
  · rintro ⟨hw, ⟨a1, b1⟩, ⟨a2, b2⟩, ⟨a3, b3⟩, ⟨a4, b4⟩, a5, b5⟩
    exact ⟨hw, ⟨a1, a2, a3, a4, a5⟩, b1, b2, b3, b4, b5⟩
'''
LAW['ToolsChoice'] = '''instance : XNonEmpty X.toolsChoice := ⟨fun _ => rfl⟩

theorem xok_toolsChoice (x : ToolsChoice) : X.Ok X.toolsChoice x ↔ x.XPlain := by
  obtain ⟨t, c, s⟩ := x
  have h1 := ofList_normList true X.tool t
  have h2 := ofList_normList true X.component c
  have h3 := ofList_normList true X.service s
  simp only [eok_of, xok_tool, xok_component, xok_service] at h1 h2 h3
  have h6 : X.toolsChoice.writes ⟨t, c, s⟩ = true ↔ (⟨t, c, s⟩ : ToolsChoice) ≠ {} := by
    have hn : ∀ {α : Type} (p : PSlice α), p.isNil = true ↔ p = .nil := by intro _ p; cases p <;> simp [PSlice.isNil]
    simp only [X.toolsChoice, Bool.not_eq_true', ne_eq, ToolsChoice.mk.injEq, ← Bool.not_eq_true, Bool.and_eq_true, hn]
    grind
  rw [ToolsChoice.XPlain, ← h6, ← h1, ← h2, ← h3, X.Ok]
  simp only [X.toolsChoice, ToolsChoice.mk.injEq, X.toolsChoiceFields, XFields.good, XField.list, XField.nlist, and_true]
  constructor
  · rintro ⟨hw, ⟨a1, a2, a3⟩, b1, b2, b3⟩
    exact ⟨hw, ⟨a1, b1⟩, ⟨a2, b2⟩, a3, b3⟩
  · rintro ⟨hw, ⟨a1, b1⟩, ⟨a2, b2⟩, a3, b3⟩
    exact ⟨hw, ⟨a1, a2, a3⟩, b1, b2, b3⟩
'''

PEDLAW = '''theorem xok_pedigreeWith (C : XCodec Component) [XNonEmpty C] [XNamed C] (x : Pedigree Component)
    (h1 : (x.ancestors.XEach fun c => X.Ok C c) ↔ XPlainComponents x.ancestors)
    (h2 : (x.descendants.XEach fun c => X.Ok C c) ↔ XPlainComponents x.descendants)
    (h3 : (x.variants.XEach fun c => X.Ok C c) ↔ XPlainComponents x.variants) :
    X.Ok (X.pedigree C) x ↔ XPlainPedigree x := by
  rw [X.pedigree, xok_struct (X.pedigreeFields C) _ _ (fun _ => rfl) (fun _ => rfl)]
  simp only [X.pedigreeFields, @ROK@, Pedigree.toP, @FOK@, h1, h2, h3, @DEPS@and_true, true_and, implies_true]
  cases x; exact Iff.rfl
'''
COMPLAW = '''theorem xplainComponentList_iff (xs : List Component) : XPlainComponentList xs ↔ ∀ c ∈ xs, c.XPlain := by
  induction xs with
  | nil => simp [XPlainComponentList]
  | cons x xs ih => simp [XPlainComponentList, ih]

theorem xplainComponents_iff (p : PSlice Component) : XPlainComponents p ↔ p.XEach Component.XPlain := by
  cases p <;> simp [XPlainComponents, PSlice.XEach, xplainComponentList_iff]

theorem xok_componentWith (C : XCodec Component) [XNonEmpty C] [XNamed C] (x : Component)
    (h1 : (x.components.XEach fun c => X.Ok C c) ↔ XPlainComponents x.components)
    (h2 : ∀ p ∈ x.pedigree, (X.Ok (X.pedigree C) p ↔ XPlainPedigree p)) :
    X.Ok (X.componentWith C) x ↔ x.XPlain := by
  have h3 : (∀ p ∈ x.pedigree, X.Ok (X.pedigree C) p) ↔ XPlainPedigreeOpt x.pedigree := by
    cases hp : x.pedigree with
    | none => simp [XPlainPedigreeOpt]
    | some p => simpa [XPlainPedigreeOpt] using h2 p hp
  rw [X.componentWith, xok_struct (X.componentFields C) _ _ (fun c => by cases c; rfl) (fun _ => rfl)]
  simp only [X.componentFields, @ROK@, Component.toP, @FOK@, fok_licenses, h1, h3, @DEPS@and_true, true_and, implies_true]
  cases x; exact Iff.rfl

instance : XNonEmpty X.component := ⟨fun _ => rfl⟩
instance : XAlways X.component := ⟨fun _ => rfl⟩

theorem xok_component (x : Component) : X.Ok X.component x ↔ x.XPlain := by
  suffices H : ∀ n (x : Component), x.height ≤ n → (X.Ok X.component x ↔ x.XPlain) from
    H x.height x (Nat.le_refl _)
  intro n
  induction n with
  | zero => intro x h; rw [Component.height_eq] at h; omega
  | succ n ih =>
    intro x h
    rw [(xcomponent_sameAt_self x).ok]
    rw [Component.height_eq] at h
    have hm : max (heightComponents x.components) (heightPedigreeOpt x.pedigree) ≤ n := by omega
    rw [Nat.max_le] at hm
    have hl : ∀ p : PSlice Component, heightComponents p ≤ n →
        ((p.XEach fun c => X.Ok X.component c) ↔ XPlainComponents p) := by
      intro p hp
      rw [heightComponents_le] at hp
      rw [xplainComponents_iff]
      exact PSlice.xeach_congr fun c hc => ih c (hp c hc)
    refine xok_componentWith _ x (hl _ hm.1) ?_
    intro p hp
    have hp : x.pedigree = some p := hp
    have hm := hm.2
    simp only [hp, heightPedigreeOpt, heightPedigree_eq, Nat.max_le] at hm
    exact xok_pedigreeWith _ p (hl _ hm.1) (hl _ hm.2.1) (hl _ hm.2.2)
'''
SERVLAW = '''theorem xplainServiceList_iff (xs : List Service) : XPlainServiceList xs ↔ ∀ c ∈ xs, c.XPlain := by
  induction xs with
  | nil => simp [XPlainServiceList]
  | cons x xs ih => simp [XPlainServiceList, ih]

theorem xplainServices_iff (p : PSlice Service) : XPlainServices p ↔ p.XEach Service.XPlain := by
  cases p <;> simp [XPlainServices, PSlice.XEach, xplainServiceList_iff]

theorem xok_serviceWith (C : XCodec Service) [XNonEmpty C] [XNamed C] (x : Service)
    (h1 : (x.services.XEach fun c => X.Ok C c) ↔ XPlainServices x.services) :
    X.Ok (X.serviceWith C) x ↔ x.XPlain := by
  rw [X.serviceWith, xok_struct (X.serviceFields C) _ _ (fun c => by cases c; rfl) (fun _ => rfl)]
  simp only [X.serviceFields, @ROK@, Service.toP, @FOK@, fok_licenses, h1, @DEPS@and_true, true_and, implies_true]
  cases x; exact Iff.rfl

instance : XNonEmpty X.service := ⟨fun _ => rfl⟩
instance : XAlways X.service := ⟨fun _ => rfl⟩

theorem xok_service (x : Service) : X.Ok X.service x ↔ x.XPlain := by
  suffices H : ∀ n (x : Service), x.height ≤ n → (X.Ok X.service x ↔ x.XPlain) from
    H x.height x (Nat.le_refl _)
  intro n
  induction n with
  | zero => intro x h; rw [Service.height_eq] at h; omega
  | succ n ih =>
    intro x h
    rw [(xservice_sameAt_self x).ok]
    rw [Service.height_eq] at h
    have hm : heightServices x.services ≤ n := by omega
    refine xok_serviceWith _ x ?_
    rw [heightServices_le] at hm
    rw [xplainServices_iff]
    exact PSlice.xeach_congr fun c hc => ih c (hm c hc)
'''
BOMLAW = '''/-- The fields of a BOM that are part of the XML format. -/
def BOM.xmlPart (x : BOM) : BOM :=
  { x with xmlName := {}, jsonSchema := "", bomFormat := "", specVersion := 0, signature := none }

theorem xok_bom (x : BOM) : X.Ok X.bom x.xmlPart ↔ x.XPlain := by
  rw [X.bom, xok_struct X.bomFields _ _ (fun _ => rfl) (fun _ => rfl)]
  simp only [X.bomFields, @ROK@, BOM.toP, BOM.xmlPart, BOM.XPlain, @FOK@, fok_licenses, fok_environmentVariables, @DEPS@and_true, true_and, implies_true]
'''
def IKELAW(n, k, s):
    from gen_types import zero
    d = '⟨hb, h⟩'
    nf = len(s.fields) - 1
    pat = ', '.join('x%d' % i for i in range(nf))
    own = ' ∧ '.join(conds(n, 'x', skip=('bomRef',)))
    return f'''instance : XNonEmpty X.{k} := ⟨fun _ => rfl⟩

theorem xok_{k}Fields (x : {n}) : X.OkF X.{k}Fields ({n}.toP x).2 ↔ {own} := by
  simp only [X.{k}Fields, {ROK}, {n}.toP, {FOK}, and_true, true_and, implies_true]

theorem xok_{k} (x : {n}) : X.Ok X.{k} x ↔ x.XPlain := by
  have hF := xok_{k}Fields x
  rw [{n}.XPlain, ← hF]
  obtain ⟨⟨r⟩, {pat}⟩ := x
  by_cases hr : r = ""
  · simp only [X.Ok, X.OkF, X.{k}, X.ikev2, hr, {n}.toP, {n}.ofP]
    simp
    intro hg
    generalize X.{k}Fields.norm _ = p
    obtain ⟨{', '.join('p%d' % i for i in range(nf))}, ⟨⟩⟩ := p
    simp
  · simp only [X.Ok, X.{k}, X.ikev2, hr, {n}.toP, {n}.ofP, {n}.mk.injEq, BOMReference.mk.injEq]
    simp [trim_sanitize_eq, hr, X.{k}Fields, XFields.zero, XField.ptr, XField.plain, XCodec.simple, XText.string]
    grind
'''
