import Verif.Spec.XmlStrict
import Verif.Xml.TextLaws

/-!
# The decoder reads well-formed documents as the trees they denote
-/

namespace Verif.XmlStrict

open Xml (isChar)
open XmlText (QName XmlLang isSpace nameLike isName nameFirst nameNext isNameByte cutAt_iff)

set_option linter.unusedSectionVars false

/-! ### Texts -/

theorem ref_mem {e : List Char} {c : Char} (h : XmlGrammar.Ref e c) : ∀ d ∈ e, d ≠ '<' ∧ d ≠ '>' ∧ d ≠ '"' := by
  have num : ∀ {val : Char → Option Nat} {ds : List Char}, val '<' = none → val '>' = none → val '"' = none →
      (∀ d ∈ ds, (val d).isSome = true) → ∀ d ∈ ds, d ≠ '<' ∧ d ≠ '>' ∧ d ≠ '"' := by
    intro val ds h1 h2 h3 h d hd
    have := h d hd
    refine ⟨?_, ?_, ?_⟩ <;> rintro rfl <;> simp_all
  cases h with
  | entity h => cases h <;> decide
  | dec h0 h1 h2 =>
    intro d hd
    simp only [List.mem_cons, List.mem_append, List.not_mem_nil, or_false] at hd
    rcases hd with rfl | rfl | hd | rfl
    · decide
    · decide
    · exact num (val := XmlText.decVal) (by decide) (by decide) (by decide) h1 d hd
    · decide
  | hex h0 h1 h2 =>
    intro d hd
    simp only [List.mem_cons, List.mem_append, List.not_mem_nil, or_false] at hd
    rcases hd with rfl | rfl | rfl | hd | rfl
    · decide
    · decide
    · decide
    · exact num (val := XmlText.hexVal) (by decide) (by decide) (by decide) h1 d hd
    · decide

theorem chars_mem {lit : Char → Prop} {r s : List Char} (h : Chars lit r s) :
    ∀ d ∈ r, lit d ∨ (d ≠ '<' ∧ d ≠ '>' ∧ d ≠ '"') := by
  induction h with
  | nil => simp
  | char hl hc hr ih =>
    intro d hd
    rcases List.mem_cons.1 hd with rfl | hd
    · exact .inl hl
    · exact ih d hd
  | ref he hc hr ih =>
    intro d hd
    rcases List.mem_append.1 hd with hd | hd
    · exact .inr (ref_mem he d hd)
    · exact ih d hd

theorem chars_data {lit : Char → Prop} (hlit : ∀ c, lit c → Plain c) {r s : List Char} (h : Chars lit r s) :
    XmlGrammar.Data r s := by
  induction h with
  | nil => exact .nil
  | char hl hc hr ih => exact .char (hlit _ hl).2.1 (hlit _ hl).2.2.2 hc ih
  | ref he hc hr ih => exact .ref he hc ih

theorem chars_text {r s : List Char} (hne : r ≠ []) (h : Chars Plain r s) : XmlGrammar.Text r s := by
  refine ⟨hne, fun hm => ?_, fun u v e => ?_, chars_data (fun _ h => h) h⟩
  · rcases chars_mem h _ hm with h | h
    · exact h.1 rfl
    · exact h.1 rfl
  · have hm : '>' ∈ r := by rw [e]; simp
    rcases chars_mem h _ hm with h | h
    · exact h.2.2.1 rfl
    · exact h.2.1 rfl

theorem chars_value {r s : List Char} (h : Chars PlainInValue r s) : XmlGrammar.Value ('"' :: (r ++ ['"'])) s := by
  refine .mk (.inl rfl) (fun hm => ?_) (fun hm => ?_) (chars_data (fun _ h => h.1) h)
  · rcases chars_mem h _ hm with h | h
    · exact h.2.1 rfl
    · exact h.2.2 rfl
  · rcases chars_mem h _ hm with h | h
    · exact h.1.1 rfl
    · exact h.1 rfl

variable [XmlLang]

/-! ### Names, attributes and tags -/

theorem ascii_of_alpha {c : Char} (h : c.isAlpha = true) : c.toNat < 128 := by
  simp only [Char.isAlpha, Char.isUpper, Char.isLower, Bool.or_eq_true, Bool.and_eq_true, decide_eq_true_eq] at h
  rcases h with ⟨_, h⟩ | ⟨_, h⟩
  · have h : c.toNat ≤ 90 := UInt32.le_iff_toNat_le.1 h
    omega
  · have h : c.toNat ≤ 122 := UInt32.le_iff_toNat_le.1 h
    omega

theorem ascii_of_digit {c : Char} (h : c.isDigit = true) : c.toNat < 128 := by
  simp only [Char.isDigit, Bool.and_eq_true, decide_eq_true_eq] at h
  have h : c.toNat ≤ 57 := UInt32.le_iff_toNat_le.1 h.2
  omega

theorem name_grammar {n : List Char} (h : Name n) : XmlGrammar.Name n ⟨[], n⟩ := by
  obtain ⟨c, r, rfl, hc, hr⟩ := h
  have hall : ∀ d ∈ c :: r, d.isAlpha = true ∨ d.isDigit = true ∨ d = '_' ∨ d = '.' ∨ d = '-' := by
    intro d hd
    rcases List.mem_cons.1 hd with rfl | hd
    · rcases hc with h | h <;> simp [h]
    · exact hr d hd
  have first : ∀ d : Char, (d.isAlpha = true ∨ d = '_') → nameFirst d = true := by
    intro d hd
    unfold nameFirst
    rcases hd with hd | rfl
    · rw [if_pos (ascii_of_alpha hd)]; simp [hd]
    · rw [if_pos (by decide)]; decide
  refine ⟨fun d hd => ?_, ?_, .plain fun hm => ?_⟩
  · simp only [nameLike, isNameByte, Char.isAlphanum, Bool.or_eq_true, decide_eq_true_eq]
    rcases hall d hd with h | h | h | h | h <;> simp [h]
  · simp only [isName, Bool.and_eq_true, List.all_eq_true]
    refine ⟨first c hc, fun d hd => ?_⟩
    unfold nameNext
    rcases hr d hd with h | h | h | h | h
    · simp [first d (.inl h)]
    · rw [if_pos (ascii_of_digit h)]; simp [h]
    · simp [first d (.inr h)]
    · subst h; simp
    · subst h; simp
  · have := hall _ hm
    revert this
    decide

/-- Attributes as they are in a start tag. -/
def qattrs (as : List (String × String)) : List (QName × List Char) :=
  as.map fun a => (⟨[], a.1.toList⟩, a.2.toList)

theorem locals_qattrs (as : List (String × String)) : XmlGrammar.locals (qattrs as) = as := by
  simp only [XmlGrammar.locals, qattrs, List.map_map]
  conv => rhs; rw [← List.map_id as]
  apply List.map_congr_left
  intro a _
  simp

theorem atts_grammar {a : List Char} {as : List (String × String)} (h : Atts a as) :
    XmlGrammar.Attrs (a ++ ['>']) (qattrs as) false ∧ XmlGrammar.NameEnds (a ++ ['>']) := by
  induction h with
  | nil => exact ⟨.close (w := []) (by simp [XmlGrammar.Blank]), '>', [], rfl, by decide⟩
  | @cons w n raw v r as hw hs hn hv hr ih =>
    constructor
    · have := XmlGrammar.Attrs.attr (w₁ := w) (w₂ := []) (w₃ := [])
        (fun c hc => by rw [hs c hc]; decide) (name_grammar hn) (by simp [XmlGrammar.Blank])
        (by simp [XmlGrammar.Blank]) (chars_value hv) ih.1
      simpa [qattrs] using this
    · cases w with
      | nil => exact absurd rfl hw
      | cons c w => exact ⟨c, _, rfl, by rw [hs c (by simp)]; decide⟩

theorem startTag_grammar {n a : List Char} {as : List (String × String)} (hn : Name n) (ha : Atts a as) :
    XmlGrammar.StartTag ('<' :: (n ++ (a ++ ['>']))) ⟨[], n⟩ (qattrs as) false :=
  .mk (name_grammar hn) (atts_grammar ha).2 (atts_grammar ha).1

theorem endTag_grammar {n : List Char} (hn : Name n) : XmlGrammar.EndTag ('<' :: '/' :: (n ++ ['>'])) ⟨[], n⟩ := by
  simpa using XmlGrammar.EndTag.mk (w := []) (name_grammar hn) (by simp [XmlGrammar.Blank])

/-! ### Documents -/

mutual
theorem element_grammar {t : List Char} {x : Xml} : Element t x → ∀ {r : List Char} {ks : List Xml},
    XmlGrammar.Content r ks → XmlGrammar.Content (t ++ r) (x :: ks)
  | .mk hn ha _ hc, r, ks, hr => by
    have := XmlGrammar.Content.elem (startTag_grammar hn ha) (content_grammar hc) (endTag_grammar hn) hr
    simp only [locals_qattrs] at this
    simpa using this
theorem content_grammar {b : List Char} {ks : List Xml} : Content b ks → XmlGrammar.Content b ks
  | .nil => .nil
  | .text hne h hr hc => .text (chars_text hne h) hr (content_grammar hc)
  | .elem h hc => element_grammar h (content_grammar hc)
end

theorem declaration_prolog {w : List Char} (hw : ∀ c ∈ w, c = ' ' ∨ c = '\n') :
    XmlGrammar.Prolog ("<?xml version=\"1.0\" encoding=\"UTF-8\"?>".toList ++ w) := by
  have h1 : XmlGrammar.Misc "<?xml version=\"1.0\" encoding=\"UTF-8\"?>".toList := by
    have := XmlGrammar.Misc.inst (n := ['x', 'm', 'l']) (w := [' ']) (b := "version=\"1.0\" encoding=\"UTF-8\"".toList)
      (by decide) (by simp [isName, nameFirst, nameNext]) ⟨' ', _, rfl, by decide⟩
      (by simp [XmlGrammar.Blank, isSpace])
      (by intro c r e; have : c = 'v' := by simpa using (congrArg List.head? e).symm
          subst this; decide)
      ?_ (fun _ => XmlLang.header)
    · exact this
    · exact ((cutAt_iff (pat := ['?', '>']) (by simp)
        (cs := "version=\"1.0\" encoding=\"UTF-8\"?>".toList) (r := [])).1 (by decide +kernel)).2
  refine XmlGrammar.Prolog.misc h1 ?_
  by_cases hne : w = []
  · subst hne; exact .nil
  · have hc : ∀ {w : List Char}, (∀ c ∈ w, c = ' ' ∨ c = '\n') → Chars Plain w w := by
      intro w
      induction w with
      | nil => intro _; exact .nil
      | cons c w ih =>
        intro h
        refine .char ?_ ?_ (ih fun d hd => h d (by simp [hd])) <;>
        rcases h c (by simp) with rfl | rfl
        · exact ⟨by decide, by decide, by decide, by decide⟩
        · exact ⟨by decide, by decide, by decide, by decide⟩
        · decide
        · decide
    have := XmlGrammar.Prolog.text (chars_text hne (hc hw)) (r := []) (by simp [XmlGrammar.TextEnds]) .nil
    simpa using this

/-- The decoder reads a well-formed document as the tree it denotes; the name space of the root is that declared by
the attribute `xmlns`. -/
theorem document_grammar {t : List Char} {n : String} {as : List (String × String)} {ks : List Xml}
    (h : Document t (.elem n as ks)) {v : List Char} (hs : XmlGrammar.Space ⟨[], n.toList⟩ (qattrs as) v) :
    XmlGrammar.Document t ⟨String.ofList v, .elem n as ks⟩ := by
  cases h with
  | mk hw he =>
    cases he with
    | mk hn ha _ hc =>
      rw [String.toList_ofList] at hs
      have := XmlGrammar.Document.elem (r := []) (declaration_prolog hw) (startTag_grammar hn ha) (content_grammar hc)
        (endTag_grammar hn) hs
      simp only [locals_qattrs] at this
      simpa using this

end Verif.XmlStrict
