import Verif.Spec.XmlText

/-!
# Well-formed XML 1.0 documents, in a form that every XML processor reads alike

A part of the grammar of "Extensible Markup Language (XML) 1.0" (the numbers are those of its productions) with the
tree of elements each text denotes.  The part leaves out what this library never writes — comments, processing
instructions, document type declarations, `CDATA` sections, empty-element tags, prefixed names and names with
characters outside ASCII — and what processors normalise: line ends in texts, white space in the values of
attributes.  So the tree is the one that any conforming processor reports.
-/

namespace Verif.XmlStrict

open Xml (isChar)

/-- [5] `Name`, in ASCII and without a colon. -/
def Name (n : List Char) : Prop :=
  ∃ c r, n = c :: r ∧ (c.isAlpha = true ∨ c = '_') ∧
    ∀ d ∈ r, d.isAlpha = true ∨ d.isDigit = true ∨ d = '_' ∨ d = '.' ∨ d = '-'

/-- [14] `CharData` and [67] `Reference`, with the characters they denote; `lit` are the characters that stand for
themselves. -/
inductive Chars (lit : Char → Prop) : List Char → List Char → Prop
  | nil : Chars lit [] []
  | char {c : Char} {r s : List Char} : lit c → isChar c = true → Chars lit r s → Chars lit (c :: r) (c :: s)
  | ref {e r s : List Char} {c : Char} : XmlGrammar.Ref e c → isChar c = true → Chars lit r s → Chars lit (e ++ r) (c :: s)

/-- The characters that may stand in a text: not `<` and `&`, not `>` (so `]]>` cannot occur), and no carriage
return. -/
def Plain (c : Char) : Prop := c ≠ '<' ∧ c ≠ '&' ∧ c ≠ '>' ∧ c ≠ '\r'

/-- The characters that may stand in the value of an attribute: neither quotes nor white space other than the
space. -/
def PlainInValue (c : Char) : Prop := Plain c ∧ c ≠ '"' ∧ c ≠ '\t' ∧ c ≠ '\n'

/-- [41] `Attribute`s, each after white space ([40] `STag`), with their names and values. -/
inductive Atts : List Char → List (String × String) → Prop
  | nil : Atts [] []
  | cons {w n raw v r : List Char} {as : List (String × String)} : w ≠ [] → (∀ c ∈ w, c = ' ') → Name n →
      Chars PlainInValue raw v → Atts r as →
      Atts (w ++ (n ++ '=' :: '"' :: (raw ++ '"' :: r))) ((String.ofList n, String.ofList v) :: as)

mutual
/-- [39] `element`: the name in the end tag is that in the start tag, and no attribute is given twice. -/
inductive Element : List Char → Xml → Prop
  | mk {n a b : List Char} {as : List (String × String)} {ks : List Xml} : Name n → Atts a as →
      (as.map Prod.fst).Nodup → Content b ks →
      Element ('<' :: (n ++ (a ++ '>' :: (b ++ '<' :: '/' :: (n ++ ['>']))))) (.elem (String.ofList n) as ks)
/-- [43] `content`. -/
inductive Content : List Char → List Xml → Prop
  | nil : Content [] []
  | text {t s r : List Char} {ks : List Xml} : t ≠ [] → Chars Plain t s → (∀ c r', r = c :: r' → c = '<') →
      Content r ks → Content (t ++ r) (.text (String.ofList s) :: ks)
  | elem {t r : List Char} {k : Xml} {ks : List Xml} : Element t k → Content r ks → Content (t ++ r) (k :: ks)
end

/-- [1] `document`: [23] an XML declaration, white space, and one element. -/
inductive Document : List Char → Xml → Prop
  | mk {w t : List Char} {x : Xml} : (∀ c ∈ w, c = ' ' ∨ c = '\n') → Element t x →
      Document ("<?xml version=\"1.0\" encoding=\"UTF-8\"?>".toList ++ (w ++ t)) x

end Verif.XmlStrict
