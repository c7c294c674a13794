import Verif.Xml.Codec
import Verif.Json.Laws

/-!
# What is written in XML is read back

The laws of the codecs of `Verif.Xml.Codec`: what a value becomes when it is written and read back into a
zero value is its `norm`.
-/

namespace Verif

open Xml (sanitize trim trimChars textOf textKids fixChar isSpace)

/-- What is written as text is read back. -/
class XTextLawful {α : Type} (c : XText α) : Prop where
  round : ∀ a, c.good a → c.dec (c.enc a) = some (c.norm a)

/-- What is written as an element is read back; the element has the expected name. -/
class XLawful {α : Type} (c : XCodec α) : Prop where
  round : ∀ n a x, c.good a → c.enc n a = some (some x) → c.dec x c.zero = some (c.norm a)
  named : ∀ n a x, c.enc n a = some (some x) → x.isElem (c.rename n) = true
  writes : ∀ n a o, c.enc n a = some o → o.isSome = c.writes a

/-- The element is written under the name of the field. -/
class XNamed {α : Type} (c : XCodec α) : Prop where
  rename : ∀ n, c.rename n = n

/-- What is written for a field is read back; the elements have the name of the field. -/
class XFieldLawful {α : Type} (f : XField α) : Prop where
  round : ∀ a xs, f.good a → f.enc a = some xs → XField.decAll f.dec xs f.zero = some (f.norm a)
  named : ∀ a xs, f.enc a = some xs → ∀ x ∈ xs, x.isElem f.name = true

/-! ### Texts -/

theorem fixChar_idem (c : Char) : fixChar (fixChar c) = fixChar c := by
  unfold fixChar
  split
  · rfl
  · have : Xml.isChar '�' = true := by decide
    simp [this]

theorem sanitize_toList (s : String) : (sanitize s).toList = s.toList.map fixChar := by
  simp [sanitize]

theorem sanitize_idem (s : String) : sanitize (sanitize s) = sanitize s := by
  apply String.toList_inj.1
  rw [sanitize_toList, sanitize_toList, List.map_map]
  exact List.map_congr_left fun c _ => fixChar_idem c

@[simp] theorem sanitize_empty : sanitize "" = "" := rfl

theorem sanitize_eq_empty {s : String} : sanitize s = "" ↔ s = "" := by
  rw [← String.toList_inj, ← String.toList_inj, sanitize_toList]
  simp

theorem trimChars_of_none {cs : List Char} (h : ∀ c ∈ cs, isSpace c = false) : trimChars cs = cs := by
  have key : ∀ {xs : List Char}, (∀ c ∈ xs, isSpace c = false) → xs.dropWhile isSpace = xs := by
    intro xs hx
    cases xs with
    | nil => rfl
    | cons x xs => simp [hx x (by simp)]
  unfold trimChars
  rw [key h, key (by simpa using h), List.reverse_reverse]

theorem trim_of_none {s : String} (h : ∀ c ∈ s.toList, isSpace c = false) : trim s = s := by
  rw [trim, trimChars_of_none h, String.ofList_toList]

theorem not_space_of_digit {c : Char} (h : isDigitChar c = true) : isSpace c = false := by
  simp only [isDigitChar, Bool.and_eq_true, decide_eq_true_eq] at h
  have h1 : 48 ≤ c.toNat := UInt32.le_iff_toNat_le.1 h.1
  have h2 : c.toNat ≤ 57 := UInt32.le_iff_toNat_le.1 h.2
  simp only [isSpace, decide_eq_false_iff_not]
  omega

theorem not_space_of_float {c : Char} (h : isFloatChar c = true) : isSpace c = false := by
  simp only [isFloatChar, Bool.or_eq_true, decide_eq_true_eq] at h
  rcases h with h | h
  · exact not_space_of_digit h
  · simp only [List.mem_cons, List.not_mem_nil, or_false] at h
    rcases h with rfl | rfl | rfl | rfl | rfl | rfl | rfl | rfl | rfl <;> decide

theorem intChars_chars (i : Int) : ∀ c ∈ intChars i, isDigitChar c = true ∨ c = '-' := by
  have hd : ∀ c ∈ (digits i.natAbs).map digitChar, isDigitChar c = true := by
    intro c hc
    obtain ⟨d, hd, rfl⟩ := List.mem_map.1 hc
    exact (digitChar_val (digits_mem_lt _ d hd)).2.1
  intro c hc
  unfold intChars at hc
  split at hc
  · rcases List.mem_cons.1 hc with rfl | hc
    · exact .inr rfl
    · exact .inl (hd c hc)
  · exact .inl (hd c hc)

theorem intChars_ne_nil (i : Int) : intChars i ≠ [] := by
  unfold intChars
  split
  · simp
  · simpa using digits_ne_nil i.natAbs

theorem intChars_not_plus (i : Int) (ds : List Char) : intChars i ≠ '+' :: ds := by
  intro e
  have := intChars_chars i '+' (by rw [e]; simp)
  revert this; decide

theorem int_not_space (i : Int) : ∀ c ∈ intChars i, isSpace c = false := by
  intro c hc
  rcases intChars_chars i c hc with h | rfl
  · exact not_space_of_digit h
  · decide

instance : XTextLawful XText.string where
  round _ _ := rfl

instance : XTextLawful XText.bomReference where
  round _ _ := rfl

instance : XTextLawful XText.bool where
  round a _ := by cases a <;> decide

theorem xparseInt_intChars {i : Int} (h : InInt64 i) : XText.parseInt (intChars i) = some i := by
  unfold XText.parseInt
  split
  · rename_i ds e; exact absurd e (intChars_not_plus i ds)
  · exact parseInt_intChars h

instance : XTextLawful XText.int where
  round a g := by
    have hne : String.ofList (intChars a) ≠ "" := by
      intro e
      have := congrArg String.toList e
      simp at this
      exact intChars_ne_nil a this
    simp only [XText.int, if_neg hne, String.toList_ofList, trimChars_of_none (int_not_space a)]
    exact xparseInt_intChars g

instance [XFloatIO] : XTextLawful XText.f32 where
  round a _ := by
    have h : trim (XFloatIO.fmt32 a) = XFloatIO.fmt32 a :=
      trim_of_none fun c hc => not_space_of_float (XFloatIO.fmt32_chars a c hc)
    simp only [XText.f32, if_neg (XFloatIO.fmt32_ne a), h]
    exact XFloatIO.parse_fmt32 a

instance [XFloatIO] : XTextLawful XText.f64 where
  round a _ := by
    have h : trim (XFloatIO.fmt64 a) = XFloatIO.fmt64 a :=
      trim_of_none fun c hc => not_space_of_float (XFloatIO.fmt64_chars a c hc)
    simp only [XText.f64, if_neg (XFloatIO.fmt64_ne a), h]
    exact XFloatIO.parse_fmt64 a

@[simp] theorem textOf_textKids (s : String) : textOf (textKids s) = s := by
  unfold textKids
  split
  · rename_i h; simp [textOf, h]
  · simp [textOf]

/-! ### Elements holding a text -/

instance {α : Type} (c : XText α) [L : XTextLawful c] : XLawful (XCodec.simple c) where
  round n a x g h := by
    simp only [XCodec.simple, Option.some.injEq] at h
    subst h
    simp only [XCodec.simple, Xml.kids, textOf_textKids]
    exact L.round a g
  named n a x h := by
    simp only [XCodec.simple, Option.some.injEq] at h
    subst h
    simp [Xml.isElem, XCodec.simple]
  writes n a o h := by
    simp only [XCodec.simple, Option.some.injEq] at h
    subst h; rfl

instance {α : Type} (c : XText α) : XNamed (XCodec.simple c) := ⟨fun _ => rfl⟩

/-! ### Fields -/

namespace XField

variable {α : Type} {c : XCodec α}

theorem decAll_append (dec : Xml → α → Option α) (xs ys : List Xml) (a : α) :
    decAll dec (xs ++ ys) a = (decAll dec xs a).bind (decAll dec ys) := by
  induction xs generalizing a with
  | nil => rfl
  | cons x xs ih =>
    simp only [List.cons_append, decAll]
    cases dec x a with
    | none => rfl
    | some a' => exact ih a'

theorem decAll_single (dec : Xml → α → Option α) (x : Xml) (a : α) : decAll dec [x] a = dec x a := by
  simp only [decAll]
  cases dec x a <;> rfl

theorem enc_cases [L : XLawful c] {n : String} {a : α} {o : Option Xml} (h : c.enc n a = some o) :
    (c.writes a = false ∧ o = none) ∨ (c.writes a = true ∧ ∃ x, o = some x ∧ x.isElem (c.rename n) = true) := by
  have hw := L.writes n a o h
  cases o with
  | none => exact .inl ⟨hw.symm, rfl⟩
  | some x => exact .inr ⟨hw.symm, x, rfl, L.named n a x h⟩

instance (n : String) (oe : Bool) [L : XLawful c] [N : XNamed c] : XFieldLawful (plain n oe c) where
  round a xs g h := by
    simp only [plain] at h g ⊢
    split at h
    · rename_i hoe
      simp only [Option.some.injEq] at h; subst h
      simp [decAll, hoe]
    · rename_i hoe
      obtain ⟨o, ho, rfl⟩ := Option.map_eq_some_iff.1 h
      rcases enc_cases ho with ⟨hw, rfl⟩ | ⟨hw, x, rfl, -⟩
      · simp [decAll, hw]
      · simp only [Option.toList_some, decAll_single]
        rw [L.round n a x g ho]
        simp [hoe, hw]
  named a xs h x hx := by
    simp only [plain] at h ⊢
    split at h
    · simp only [Option.some.injEq] at h; subst h; simp at hx
    · obtain ⟨o, ho, rfl⟩ := Option.map_eq_some_iff.1 h
      rcases enc_cases ho with ⟨-, rfl⟩ | ⟨-, y, rfl, hy⟩
      · simp at hx
      · simp at hx; subst hx; rwa [N.rename] at hy

instance (n : String) [L : XLawful c] [N : XNamed c] : XFieldLawful (ptr n c) where
  round a xs g h := by
    cases a with
    | none => simp only [ptr, Option.some.injEq] at h; subst h; rfl
    | some a =>
      simp only [ptr] at h g ⊢
      obtain ⟨o, ho, rfl⟩ := Option.map_eq_some_iff.1 h
      rcases enc_cases ho with ⟨hw, rfl⟩ | ⟨hw, x, rfl, -⟩
      · simp [decAll, hw]
      · simp only [Option.toList_some, decAll_single, Option.getD_none]
        rw [L.round n a x (g a rfl) ho]
        simp [hw]
  named a xs h x hx := by
    cases a with
    | none => simp only [ptr, Option.some.injEq] at h; subst h; simp at hx
    | some a =>
      simp only [ptr] at h ⊢
      obtain ⟨o, ho, rfl⟩ := Option.map_eq_some_iff.1 h
      rcases enc_cases ho with ⟨-, rfl⟩ | ⟨-, y, rfl, hy⟩
      · simp at hx
      · simp at hx; subst hx; rwa [N.rename] at hy

theorem encList_named [L : XLawful c] {n : String} {oe : Bool} : ∀ {as : List α} {ks : List Xml},
    encList n oe c as = some ks → ∀ x ∈ ks, x.isElem (c.rename n) = true
  | [], ks, h, x, hx => by simp only [encList, Option.some.injEq] at h; subst h; simp at hx
  | a :: as, ks, h, x, hx => by
    simp only [encList] at h
    split at h
    · exact encList_named h x hx
    · split at h
      · cases h
      · rename_i o ho
        obtain ⟨ks', hk, rfl⟩ := Option.map_eq_some_iff.1 h
        rcases List.mem_append.1 hx with hx | hx
        · rcases enc_cases ho with ⟨-, rfl⟩ | ⟨-, y, rfl, hy⟩
          · simp at hx
          · simp at hx; subst hx; exact hy
        · exact encList_named hk x hx

/-- The elements of a list are read back one after the other, by anything that decodes each of them and
adds the result to a state. -/
theorem encList_foldl {σ : Type} [L : XLawful c] {n : String} {oe : Bool} {step : Xml → σ → Option σ}
    {app : σ → α → σ} (hs : ∀ x s, x.isElem (c.rename n) = true → step x s = (c.dec x c.zero).map (app s)) :
    ∀ {as : List α} {ks : List Xml} (s : σ), (∀ a ∈ as, c.good a) → encList n oe c as = some ks →
      decAll step ks s = some ((normList oe c as).foldl app s)
  | [], ks, s, _, h => by simp only [encList, Option.some.injEq] at h; subst h; rfl
  | a :: as, ks, s, g, h => by
    have g' : ∀ b ∈ as, c.good b := fun b hb => g b (by simp [hb])
    simp only [encList] at h
    split at h
    · rename_i hoe
      rw [encList_foldl hs s g' h]
      simp only [normList, List.filter_cons, hoe, Bool.true_or, Bool.not_true, Bool.false_eq_true, if_false]
    · rename_i hoe
      split at h
      · cases h
      · rename_i o ho
        obtain ⟨ks', hk, rfl⟩ := Option.map_eq_some_iff.1 h
        rcases enc_cases ho with ⟨hw, rfl⟩ | ⟨hw, x, rfl, hx⟩
        · simp only [Option.toList_none, List.nil_append]
          rw [encList_foldl hs s g' hk]
          simp only [normList, List.filter_cons, hw, Bool.not_false, Bool.or_true, Bool.not_true,
            Bool.false_eq_true, if_false]
        · simp only [Option.toList_some, List.singleton_append, decAll]
          rw [hs x s hx, L.round n a x (g a (by simp)) ho]
          simp only [Option.map_some]
          rw [encList_foldl hs _ g' hk]
          have hoe : (oe && c.empty a) = false := by simpa using hoe
          simp only [normList, List.filter_cons, hoe, hw, Bool.not_true, Bool.false_or, Bool.not_false,
            if_true, List.map_cons, List.foldl_cons]

/-- The elements of a list are read back one after the other. -/
theorem encList_round [L : XLawful c] {n : String} {oe : Bool} : ∀ {as : List α} {ks : List Xml} (p : PSlice α),
    (∀ a ∈ as, c.good a) → encList n oe c as = some ks →
    decAll (fun x old => (c.dec x c.zero).map (push old)) ks p =
      some (match normList oe c as with | [] => p | bs => .list (p.elems ++ bs))
  | [], ks, p, _, h => by simp only [encList, Option.some.injEq] at h; subst h; rfl
  | a :: as, ks, p, g, h => by
    have g' : ∀ b ∈ as, c.good b := fun b hb => g b (by simp [hb])
    simp only [encList] at h
    split at h
    · rename_i hoe
      rw [encList_round p g' h]
      simp only [normList, List.filter_cons, hoe, Bool.true_or, Bool.not_true, Bool.false_eq_true, if_false]
    · rename_i hoe
      split at h
      · cases h
      · rename_i o ho
        obtain ⟨ks', hk, rfl⟩ := Option.map_eq_some_iff.1 h
        rcases enc_cases ho with ⟨hw, rfl⟩ | ⟨hw, x, rfl, -⟩
        · simp only [Option.toList_none, List.nil_append]
          rw [encList_round p g' hk]
          simp only [normList, List.filter_cons, hw, Bool.not_false, Bool.or_true, Bool.not_true,
            Bool.false_eq_true, if_false]
        · simp only [Option.toList_some, List.singleton_append, decAll]
          rw [L.round n a x (g a (by simp)) ho]
          simp only [Option.map_some]
          rw [encList_round _ g' hk]
          have : normList oe c (a :: as) = c.norm a :: normList oe c as := by
            have hoe : (oe && c.empty a) = false := by simpa using hoe
            simp only [normList, List.filter_cons, hoe, hw, Bool.not_true, Bool.false_or, Bool.not_false,
              if_true, List.map_cons]
          rw [this]
          cases hn : normList oe c as with
          | nil => rfl
          | cons b bs => simp [push, PSlice.elems]

theorem ofList_match {bs : List α} : (match bs with | [] => PSlice.nil | bs => .list ((PSlice.nil : PSlice α).elems ++ bs)) =
    ofList bs := by
  cases bs <;> rfl

instance (n : String) (oe : Bool) [L : XLawful c] [N : XNamed c] : XFieldLawful (list n oe c) where
  round a xs g h := by
    show decAll (fun x old => (c.dec x c.zero).map (push old)) xs PSlice.nil = _
    rw [encList_round _ g h, ofList_match]
    rfl
  named a xs h x hx := by
    have := encList_named h x hx
    rwa [N.rename] at this

theorem decInner_round {n : String} : ∀ {ks : List Xml} (p : PSlice α),
    (∀ x ∈ ks, x.isElem n = true) →
    decAll (decInner n c) ks p = decAll (fun x old => (c.dec x c.zero).map (push old)) ks p
  | [], _, _ => rfl
  | x :: xs, p, h => by
    simp only [decAll, decInner, h x (by simp), if_true]
    cases (c.dec x c.zero).map (push p) with
    | none => rfl
    | some q => exact decInner_round q fun y hy => h y (by simp [hy])

theorem decInner_skip {n : String} : ∀ {ks : List Xml} (p : PSlice α),
    (∀ x ∈ ks, x.isElem n = false) → decAll (decInner n c) ks p = some p
  | [], _, _ => rfl
  | x :: xs, p, h => by
    simp only [decAll, decInner, h x (by simp), Bool.false_eq_true, if_false]
    exact decInner_skip p fun y hy => h y (by simp [hy])

theorem isElem_ne {x : Xml} {m n : String} (h : x.isElem m = true) (hne : m ≠ n) : x.isElem n = false := by
  cases x with
  | elem k as ks => simp only [Xml.isElem, decide_eq_true_eq] at h; subst h; simp [Xml.isElem, hne]
  | text s => rfl

theorem nlist_enc_ne_nil {p n : String} {oe : Bool} {as : PSlice α} (h : as ≠ .nil) :
    (nlist p n oe c).enc as = (encList n oe c as.elems).map fun ks => [.elem p [] ks] := by
  cases as <;> first | rfl | exact absurd rfl h

instance (p n : String) (oe : Bool) [L : XLawful c] : XFieldLawful (nlist p n oe c) where
  round a xs g h := by
    by_cases e : a = .nil
    · subst e
      simp only [nlist, Option.some.injEq] at h; subst h
      simp [decAll, nlist, PSlice.elems, normList, ofList]
    · rw [nlist_enc_ne_nil e] at h
      obtain ⟨ks, hk, rfl⟩ := Option.map_eq_some_iff.1 h
      rw [decAll_single]
      show decAll (decInner n c) ks PSlice.nil = some (if c.rename n = n then ofList (normList oe c a.elems) else .nil)
      split
      · rename_i hn
        rw [decInner_round _ (fun x hx => by have := encList_named hk x hx; rwa [hn] at this),
          encList_round _ g hk, ofList_match]
      · rename_i hn
        exact decInner_skip _ fun x hx => isElem_ne (encList_named hk x hx) hn
  named a xs h x hx := by
    by_cases e : a = .nil
    · subst e
      simp only [nlist, Option.some.injEq] at h; subst h; simp at hx
    · rw [nlist_enc_ne_nil e] at h
      obtain ⟨ks, -, rfl⟩ := Option.map_eq_some_iff.1 h
      simp at hx; subst hx
      simp [Xml.isElem, nlist]

instance (p n : String) [L : XLawful c] : XFieldLawful (nptr p n c) where
  round a xs g h := by
    cases a with
    | none => simp only [nptr, Option.some.injEq] at h; subst h; rfl
    | some a =>
      simp only [nptr] at h g
      obtain ⟨o, ho, rfl⟩ := Option.map_eq_some_iff.1 h
      rw [decAll_single]
      simp only [nptr, Xml.kids]
      rcases enc_cases ho with ⟨hw, rfl⟩ | ⟨hw, x, rfl, hx⟩
      · simp [decAll, hw]
      · simp only [Option.toList_some, decAll_single, hw, true_and]
        by_cases hn : c.rename n = n
        · rw [hn] at hx
          simp only [hx, if_true, Option.getD_none, hn]
          rw [L.round n a x (g a rfl) ho]; rfl
        · simp [hn, isElem_ne hx hn]
  named a xs h x hx := by
    cases a with
    | none => simp only [nptr, Option.some.injEq] at h; subst h; simp at hx
    | some a =>
      simp only [nptr] at h
      obtain ⟨o, -, rfl⟩ := Option.map_eq_some_iff.1 h
      simp at hx; subst hx
      simp [Xml.isElem, nptr]

end XField

/-- A slice type with methods of its own starts from an empty slice when it is read. -/
class XSliceLawful {α : Type} (c : XCodec (List α)) : Prop extends XLawful c, XNamed c where
  zero : c.zero = []

namespace XField

variable {α : Type} {c : XCodec (List α)}

theorem slice_enc_ne_nil {n : String} {as : PSlice α} (h : as ≠ .nil) :
    (slice n c).enc as = (c.enc n as.elems).map (·.toList) := by
  cases as <;> first | rfl | exact absurd rfl h

theorem slice_norm_ne_nil {n : String} {as : PSlice α} (h : as ≠ .nil) :
    (slice n c).norm as = if c.writes as.elems then .list (c.norm as.elems) else .nil := by
  cases as <;> first | rfl | exact absurd rfl h

instance (n : String) [L : XSliceLawful c] : XFieldLawful (slice n c) where
  round a xs g h := by
    by_cases e : a = .nil
    · subst e
      simp only [slice, Option.some.injEq] at h; subst h; rfl
    · rw [slice_enc_ne_nil e] at h
      rw [slice_norm_ne_nil e]
      obtain ⟨o, ho, rfl⟩ := Option.map_eq_some_iff.1 h
      rcases enc_cases ho with ⟨hw, rfl⟩ | ⟨hw, x, rfl, -⟩
      · simp [decAll, hw, slice]
      · simp only [Option.toList_some, decAll_single, hw, if_true]
        have := L.round n a.elems x g ho
        rw [L.zero] at this
        simp [slice, PSlice.elems, this]
  named a xs h x hx := by
    by_cases e : a = .nil
    · subst e
      simp only [slice, Option.some.injEq] at h; subst h; simp at hx
    · rw [slice_enc_ne_nil e] at h
      obtain ⟨o, ho, rfl⟩ := Option.map_eq_some_iff.1 h
      rcases enc_cases ho with ⟨-, rfl⟩ | ⟨-, y, rfl, hy⟩
      · simp at hx
      · simp at hx; subst hx
        rw [L.rename] at hy; exact hy

end XField

/-! ### Structs -/

/-- What is written for the fields of a struct is read back. -/
class XFieldsLawful {β : Type} (F : XFields β) : Prop where
  /-- Attributes come from fields of their names. -/
  attrs : ∀ b, ∀ kv ∈ F.encAttrs b, kv.1 ∈ F.attrNames
  /-- Children are text or elements of the names of the fields. -/
  kids : ∀ b ks, F.encKids b = some ks → ∀ x ∈ ks, (∃ n ∈ F.elemNames, x.isElem n = true) ∨ ∃ s, x = .text s
  /-- Without a field for the character data there is none. -/
  notext : ∀ b ks, F.texts = 0 → F.encKids b = some ks → textOf ks = ""
  round : F.attrNames.Nodup → F.elemNames.Nodup → F.texts ≤ 1 → ∀ b ks, F.good b → F.encKids b = some ks →
    ∃ b₁ b₂, F.decAttrs (F.encAttrs b) F.zero = some b₁ ∧ XField.decAll F.setKid ks b₁ = some b₂ ∧
      F.setText (textOf ks) b₂ = F.norm b

theorem textOf_append (xs ys : List Xml) : textOf (xs ++ ys) = textOf xs ++ textOf ys := by
  induction xs with
  | nil => simp [textOf]
  | cons x xs ih =>
    cases x <;> simp [textOf, ih, String.append_assoc]

theorem textOf_elems {n : String} {xs : List Xml} (h : ∀ x ∈ xs, x.isElem n = true) : textOf xs = "" := by
  induction xs with
  | nil => rfl
  | cons x xs ih =>
    cases x with
    | elem => simp only [textOf]; exact ih fun y hy => h y (by simp [hy])
    | text s => have := h _ (List.mem_cons_self ..); simp [Xml.isElem] at this

theorem XFields.setText_of_none {β : Type} (F : XFields β) (h : F.texts = 0) (s : String) (b : β) :
    F.setText s b = b := by
  induction F with
  | nil => rfl
  | chardata F => simp [XFields.texts] at h
  | _ => simp_all [XFields.texts, XFields.setText]

/-- A field that leaves attributes to the others. -/
theorem decAttrs_pass {α β : Type} {G : XFields (α × β)} {F : XFields β}
    (h : ∀ kv a b, G.setAttr kv (a, b) = (F.setAttr kv b).map (a, ·)) :
    ∀ kvs a b, G.decAttrs kvs (a, b) = (F.decAttrs kvs b).map (a, ·)
  | [], _, _ => rfl
  | kv :: kvs, a, b => by
    simp only [XFields.decAttrs, h]
    cases F.setAttr kv b with
    | none => rfl
    | some b' => exact decAttrs_pass h kvs a b'

/-- A field that leaves children to the others. -/
theorem decKids_pass {α β : Type} {G : XFields (α × β)} {F : XFields β}
    (h : ∀ x a b, G.setKid x (a, b) = (F.setKid x b).map (a, ·)) :
    ∀ xs a b, XField.decAll G.setKid xs (a, b) = (XField.decAll F.setKid xs b).map (a, ·)
  | [], _, _ => rfl
  | x :: xs, a, b => by
    simp only [XField.decAll, h]
    cases F.setKid x b with
    | none => rfl
    | some b' => exact decKids_pass h xs a b'

/-- A field that leaves these attributes to the others. -/
theorem decAttrs_others {α β : Type} {G : XFields (α × β)} {F : XFields β} {n : String}
    (h : ∀ kv a b, kv.1 ≠ n → G.setAttr kv (a, b) = (F.setAttr kv b).map (a, ·)) :
    ∀ kvs a b, (∀ kv ∈ kvs, kv.1 ≠ n) → G.decAttrs kvs (a, b) = (F.decAttrs kvs b).map (a, ·)
  | [], _, _, _ => rfl
  | kv :: kvs, a, b, hn => by
    simp only [XFields.decAttrs, h kv a b (hn kv (by simp))]
    cases F.setAttr kv b with
    | none => rfl
    | some b' => exact decAttrs_others h kvs a b' fun kv hk => hn kv (by simp [hk])

theorem decKids_others {α β : Type} (f : XField α) (F : XFields β) :
    ∀ xs a b, (∀ x ∈ xs, x.isElem f.name = false) →
      XField.decAll (XFields.elem f F).setKid xs (a, b) = (XField.decAll F.setKid xs b).map (a, ·)
  | [], _, _, _ => rfl
  | x :: xs, a, b, hn => by
    simp only [XField.decAll, XFields.setKid, hn x (by simp), Bool.false_eq_true, if_false]
    cases F.setKid x b with
    | none => rfl
    | some b' => exact decKids_others f F xs a b' fun y hy => hn y (by simp [hy])

theorem decKids_own {α β : Type} (f : XField α) (F : XFields β) :
    ∀ xs a b, (∀ x ∈ xs, x.isElem f.name = true) →
      XField.decAll (XFields.elem f F).setKid xs (a, b) = (XField.decAll f.dec xs a).map (·, b)
  | [], _, _, _ => rfl
  | x :: xs, a, b, hn => by
    simp only [XField.decAll, XFields.setKid, hn x (by simp), if_true]
    cases f.dec x a with
    | none => rfl
    | some a' => exact decKids_own f F xs a' b fun y hy => hn y (by simp [hy])

instance : XFieldsLawful XFields.nil where
  attrs b kv h := by simp [XFields.encAttrs] at h
  kids b ks h x hx := by simp only [XFields.encKids, Option.some.injEq] at h; subst h; simp at hx
  notext b ks _ h := by simp only [XFields.encKids, Option.some.injEq] at h; subst h; rfl
  round _ _ _ b ks _ h := by
    simp only [XFields.encKids, Option.some.injEq] at h; subst h
    exact ⟨(), (), rfl, rfl, rfl⟩

instance {α β : Type} (z : α) (F : XFields β) [L : XFieldsLawful F] : XFieldsLawful (.skip z F) where
  attrs b := L.attrs b.2
  kids b := L.kids b.2
  notext b := L.notext b.2
  round h1 h2 h3 b ks g h := by
    obtain ⟨b₁, b₂, e1, e2, e3⟩ := L.round h1 h2 h3 b.2 ks g h
    refine ⟨(z, b₁), (z, b₂), ?_, ?_, ?_⟩
    · show XFields.decAttrs _ (F.encAttrs b.2) (z, F.zero) = _
      rw [decAttrs_pass (F := F) (fun _ _ _ => rfl), e1]; rfl
    · rw [decKids_pass (F := F) (fun _ _ _ => rfl), e2]; rfl
    · simp [XFields.setText, XFields.norm, e3]

theorem attr_lawful {α β : Type} {G : XFields (α × β)} {F : XFields β} [L : XFieldsLawful F]
    (n : String) (own : α → Option String) (nrm : α → α) (z : α) (gd : α → Prop)
    (hnames : G.attrNames = n :: F.attrNames) (helems : G.elemNames = F.elemNames) (htexts : G.texts = F.texts)
    (henc : ∀ b, G.encAttrs b = (match own b.1 with | none => F.encAttrs b.2 | some v => (n, v) :: F.encAttrs b.2))
    (hkids : ∀ b, G.encKids b = F.encKids b.2)
    (hset : ∀ kv a b, kv.1 ≠ n → G.setAttr kv (a, b) = (F.setAttr kv b).map (a, ·))
    (hkid : ∀ x a b, G.setKid x (a, b) = (F.setKid x b).map (a, ·))
    (htext : ∀ s b, G.setText s b = (b.1, F.setText s b.2))
    (hzero : G.zero = (z, F.zero)) (hnorm : ∀ b, G.norm b = (nrm b.1, F.norm b.2))
    (hgood : ∀ b, G.good b ↔ gd b.1 ∧ F.good b.2)
    (hnone : ∀ a, gd a → own a = none → nrm a = z)
    (hsome : ∀ a v b, gd a → own a = some v → G.setAttr (n, v) (z, b) = some (nrm a, b)) :
    XFieldsLawful G where
  attrs b kv h := by
    rw [henc] at h; rw [hnames]
    cases ho : own b.1 with
    | none => rw [ho] at h; exact List.mem_cons_of_mem _ (L.attrs b.2 kv h)
    | some v =>
      rw [ho] at h
      rcases List.mem_cons.1 h with rfl | h
      · simp
      · exact List.mem_cons_of_mem _ (L.attrs b.2 kv h)
  kids b ks h := by rw [hkids] at h; rw [helems]; exact L.kids b.2 ks h
  notext b ks ht h := by rw [hkids] at h; rw [htexts] at ht; exact L.notext b.2 ks ht h
  round h1 h2 h3 b ks g h := by
    rw [hnames] at h1; rw [helems] at h2; rw [htexts] at h3; rw [hkids] at h
    obtain ⟨g1, g2⟩ := (hgood b).1 g
    obtain ⟨b₁, b₂, e1, e2, e3⟩ := L.round (List.nodup_cons.1 h1).2 h2 h3 b.2 ks g2 h
    have hothers : ∀ kv ∈ F.encAttrs b.2, kv.1 ≠ n := fun kv hk e =>
      (List.nodup_cons.1 h1).1 (e ▸ L.attrs b.2 kv hk)
    refine ⟨(nrm b.1, b₁), (nrm b.1, b₂), ?_, ?_, ?_⟩
    · rw [henc, hzero]
      cases ho : own b.1 with
      | none =>
        simp only
        rw [decAttrs_others hset _ _ _ hothers, e1, hnone b.1 g1 ho]; rfl
      | some v =>
        simp only [XFields.decAttrs]
        rw [hsome b.1 v _ g1 ho]
        simp only
        rw [decAttrs_others hset _ _ _ hothers, e1]; rfl
    · rw [decKids_pass hkid, e2]; rfl
    · rw [htext, hnorm, e3]

instance {α β : Type} (n : String) (oe : Bool) (c : XText α) (F : XFields β) [C : XTextLawful c]
    [L : XFieldsLawful F] : XFieldsLawful (.attr n oe c F) := by
  refine attr_lawful (F := F) n (fun a => if oe && c.empty a then none else some (c.enc a))
    (fun a => if oe && c.empty a then c.zero else c.norm a) c.zero c.good rfl rfl rfl ?_ (fun _ => rfl) ?_
    (fun _ _ _ => rfl) (fun _ _ => rfl) rfl (fun _ => rfl) (fun _ => Iff.rfl) ?_ ?_
  · intro b
    simp only [XFields.encAttrs]
    by_cases h : (oe && c.empty b.1) = true <;> simp [h]
  · intro kv a b h; simp [XFields.setAttr, h]
  · intro a _ h
    by_cases h' : (oe && c.empty a) = true <;> simp [h'] at h ⊢
  · intro a v b g h
    by_cases h' : (oe && c.empty a) = true
    · simp [h'] at h
    · simp only [h', Bool.false_eq_true, if_false, Option.some.injEq] at h ⊢
      subst h
      simp [XFields.setAttr, C.round a g]

instance {α β : Type} (n : String) (c : XText α) (F : XFields β) [C : XTextLawful c]
    [L : XFieldsLawful F] : XFieldsLawful (.attrPtr n c F) := by
  refine attr_lawful (F := F) n (fun o => o.map c.enc) (fun o => o.map c.norm) none (fun o => ∀ a ∈ o, c.good a)
    rfl rfl rfl ?_ (fun _ => rfl) ?_ (fun _ _ _ => rfl) (fun _ _ => rfl) rfl (fun _ => rfl) (fun _ => Iff.rfl) ?_ ?_
  · rintro ⟨_ | a, b⟩ <;> rfl
  · intro kv a b h; simp [XFields.setAttr, h]
  · intro a _ h
    cases a <;> simp at h ⊢
  · intro a v b g h
    cases a with
    | none => cases h
    | some a =>
      simp only [Option.map_some, Option.some.injEq] at h; subst h
      simp [XFields.setAttr, C.round a (g a rfl)]

instance {β : Type} (F : XFields β) [L : XFieldsLawful F] : XFieldsLawful (.chardata F) where
  attrs b := L.attrs b.2
  kids b ks h x hx := by
    simp only [XFields.encKids] at h
    obtain ⟨ks', hk, rfl⟩ := Option.map_eq_some_iff.1 h
    rcases List.mem_append.1 hx with hx | hx
    · unfold textKids at hx
      split at hx
      · simp at hx
      · simp at hx; exact .inr ⟨_, hx⟩
    · exact L.kids b.2 ks' hk x hx
  notext b ks ht := by simp [XFields.texts] at ht
  round h1 h2 h3 b ks g h := by
    have h0 : F.texts = 0 := by simp only [XFields.texts] at h3; omega
    simp only [XFields.encKids] at h
    obtain ⟨ks', hk, rfl⟩ := Option.map_eq_some_iff.1 h
    obtain ⟨b₁, b₂, e1, e2, e3⟩ := L.round h1 h2 (by omega) b.2 ks' g hk
    rw [F.setText_of_none h0] at e3
    refine ⟨("", b₁), ("", b₂), ?_, ?_, ?_⟩
    · show XFields.decAttrs _ (F.encAttrs b.2) ("", F.zero) = _
      rw [decAttrs_pass (F := F) (fun _ _ _ => rfl), e1]; rfl
    · rw [decKids_pass (F := F) (fun _ _ _ => rfl), XField.decAll_append]
      have : XField.decAll F.setKid (textKids (sanitize b.1)) b₁ = some b₁ := by
        unfold textKids
        split
        · rfl
        · rw [XField.decAll_single]
          have : ∀ {γ : Type} (G : XFields γ) (s : String) (c : γ), G.setKid (.text s) c = some c := by
            intro γ G s
            induction G with
            | nil => intro c; rfl
            | elem f G ih => intro c; simp [XFields.setKid, Xml.isElem, ih]
            | _ => intro c; simp_all [XFields.setKid]
          exact this F _ _
      rw [this]
      simp [e2]
    · simp [XFields.setText, XFields.norm, textOf_append, L.notext b.2 ks' h0 hk, e3]

instance {α β : Type} (f : XField α) (F : XFields β) [C : XFieldLawful f] [L : XFieldsLawful F] :
    XFieldsLawful (.elem f F) where
  attrs b := L.attrs b.2
  kids b ks h x hx := by
    simp only [XFields.encKids] at h
    split at h
    · cases h
    · rename_i own ho
      obtain ⟨ks', hk, rfl⟩ := Option.map_eq_some_iff.1 h
      rcases List.mem_append.1 hx with hx | hx
      · exact .inl ⟨f.name, by simp [XFields.elemNames], C.named b.1 own ho x hx⟩
      · rcases L.kids b.2 ks' hk x hx with ⟨n, hn, h⟩ | h
        · exact .inl ⟨n, by simp [XFields.elemNames, hn], h⟩
        · exact .inr h
  notext b ks ht h := by
    simp only [XFields.encKids] at h
    split at h
    · cases h
    · rename_i own ho
      obtain ⟨ks', hk, rfl⟩ := Option.map_eq_some_iff.1 h
      rw [textOf_append, textOf_elems (C.named b.1 own ho), L.notext b.2 ks' ht hk]; rfl
  round h1 h2 h3 b ks g h := by
    have h2 : (f.name :: F.elemNames).Nodup := h2
    simp only [XFields.encKids] at h
    split at h
    · cases h
    · rename_i own ho
      obtain ⟨ks', hk, rfl⟩ := Option.map_eq_some_iff.1 h
      obtain ⟨b₁, b₂, e1, e2, e3⟩ := L.round h1 (List.nodup_cons.1 h2).2 h3 b.2 ks' g.2 hk
      refine ⟨(f.zero, b₁), (f.norm b.1, b₂), ?_, ?_, ?_⟩
      · show XFields.decAttrs _ (F.encAttrs b.2) (f.zero, F.zero) = _
        rw [decAttrs_pass (F := F) (fun _ _ _ => rfl), e1]; rfl
      · rw [XField.decAll_append, decKids_own f F _ _ _ (C.named b.1 own ho), C.round b.1 own g.1 ho]
        simp only [Option.map_some, Option.bind_some]
        rw [decKids_others, e2]; rfl
        intro x hx
        rcases L.kids b.2 ks' hk x hx with ⟨n, hn, h⟩ | ⟨s, rfl⟩
        · exact XField.isElem_ne h fun e => (List.nodup_cons.1 h2).1 (e ▸ hn)
        · rfl
      · simp only [XFields.setText, XFields.norm, textOf_append, textOf_elems (C.named b.1 own ho)]
        rw [String.empty_append, e3]

/-- A struct is read back field by field. -/
theorem xstruct_lawful {σ β : Type} (F : XFields β) (toP : σ → β) (ofP : β → σ) [L : XFieldsLawful F]
    (h : ∀ b, toP (ofP b) = b) (h1 : F.attrNames.Nodup) (h2 : F.elemNames.Nodup) (h3 : F.texts ≤ 1) :
    XLawful (XCodec.struct F toP ofP) where
  round n a x g he := by
    simp only [XCodec.struct] at he g ⊢
    obtain ⟨ks, hk, e⟩ := Option.map_eq_some_iff.1 he
    simp only [Option.some.injEq] at e; subst e
    obtain ⟨b₁, b₂, e1, e2, e3⟩ := L.round h1 h2 h3 (toP a) ks g hk
    simp only [h, XFields.dec, Xml.attrs, Xml.kids, e1, e2, e3, Option.map_some]
  named n a x he := by
    simp only [XCodec.struct] at he ⊢
    obtain ⟨ks, hk, e⟩ := Option.map_eq_some_iff.1 he
    simp only [Option.some.injEq] at e; subst e
    simp [Xml.isElem]
  writes n a o he := by
    simp only [XCodec.struct] at he ⊢
    obtain ⟨ks, hk, e⟩ := Option.map_eq_some_iff.1 he
    subst e; rfl

theorem xstruct_named {σ β : Type} (F : XFields β) (toP : σ → β) (ofP : β → σ) :
    XNamed (XCodec.struct F toP ofP) := ⟨fun _ => rfl⟩

end Verif
