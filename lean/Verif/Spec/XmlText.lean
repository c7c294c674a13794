import Verif.Xml.Text

/-!
# Which texts are XML documents for the decoder, and what they mean

An independent grammar of the texts that `xml.Decoder` accepts, with the tree of elements each of them denotes.
It speaks about how texts are put together, not about reading them from left to right.

The grammar differs from the one in the XML recommendation where Go's decoder does: anything that is not a tag may
precede the root element and anything may follow it, attributes need not be separated by white space and may be
repeated, names of entities other than the five predeclared ones are refused, and the contents of document type
declarations are not looked at.
-/

namespace Verif.XmlGrammar

open Xml (isChar)
open XmlText (isSpace nameLike isName QName XmlLang runeOf hexVal decVal digits)

/-- White space. -/
def Blank (cs : List Char) : Prop := ∀ c ∈ cs, isSpace c = true

/-- The text does not begin with a character of a name. -/
def NameEnds (cs : List Char) : Prop := ∃ c r, cs = c :: r ∧ nameLike c = false

/-- The text does not begin with white space. -/
def BlankEnds (cs : List Char) : Prop := ∀ c r, cs = c :: r → isSpace c = false

/-- The pattern does not occur in `cs` followed by the pattern before its end. -/
def UpTo (pat cs : List Char) : Prop := ∀ u v, cs ++ pat = u ++ pat ++ v → u = cs

/-- The five predeclared entities. -/
inductive Entity : List Char → Char → Prop
  | lt : Entity ['l', 't'] '<'
  | gt : Entity ['g', 't'] '>'
  | amp : Entity ['a', 'm', 'p'] '&'
  | apos : Entity ['a', 'p', 'o', 's'] '\''
  | quot : Entity ['q', 'u', 'o', 't'] '"'

/-- A reference to a character. -/
inductive Ref : List Char → Char → Prop
  | entity {n : List Char} {c : Char} : Entity n c → Ref ('&' :: (n ++ [';'])) c
  | dec {ds : List Char} : ds ≠ [] → (∀ d ∈ ds, (decVal d).isSome = true) → digits 10 decVal ds ≤ 0x10FFFF →
      Ref ('&' :: '#' :: (ds ++ [';'])) (runeOf (digits 10 decVal ds))
  | hex {ds : List Char} : ds ≠ [] → (∀ d ∈ ds, (hexVal d).isSome = true) → digits 16 hexVal ds ≤ 0x10FFFF →
      Ref ('&' :: '#' :: 'x' :: (ds ++ [';'])) (runeOf (digits 16 hexVal ds))

/-- Character data and the characters it denotes. -/
inductive Data : List Char → List Char → Prop
  | nil : Data [] []
  | char {c : Char} {r s : List Char} : c ≠ '&' → c ≠ '\r' → isChar c = true → Data r s → Data (c :: r) (c :: s)
  | crlf {r s : List Char} : Data r s → Data ('\r' :: '\n' :: r) ('\n' :: s)
  | cr {r s : List Char} : (∀ r', r ≠ '\n' :: r') → Data r s → Data ('\r' :: r) ('\n' :: s)
  | ref {e r s : List Char} {c : Char} : Ref e c → isChar c = true → Data r s → Data (e ++ r) (c :: s)

/-- The contents of a `CDATA` section and the characters it denotes: only line ends are not taken literally. -/
inductive Literal : List Char → List Char → Prop
  | nil : Literal [] []
  | char {c : Char} {r s : List Char} : c ≠ '\r' → isChar c = true → Literal r s → Literal (c :: r) (c :: s)
  | crlf {r s : List Char} : Literal r s → Literal ('\r' :: '\n' :: r) ('\n' :: s)
  | cr {r s : List Char} : (∀ r', r ≠ '\n' :: r') → Literal r s → Literal ('\r' :: r) ('\n' :: s)

/-- How a name is divided into a prefix and a local name. -/
inductive Split : List Char → QName → Prop
  | plain {n : List Char} : ':' ∉ n → Split n ⟨[], n⟩
  | pref {p l : List Char} : p ≠ [] → l ≠ [] → ':' ∉ p → ':' ∉ l → Split (p ++ ':' :: l) ⟨p, l⟩
  | first {l : List Char} : ':' ∉ l → Split (':' :: l) ⟨[], ':' :: l⟩
  | last {p : List Char} : ':' ∉ p → Split (p ++ [':']) ⟨[], p ++ [':']⟩

/-- The rest of a directive in which `d` angle brackets are open besides its own. -/
inductive Directive : Nat → List Char → Prop
  | close : Directive 0 ['>']
  | up {d : Nat} {r : List Char} : Directive d r → Directive (d + 1) ('>' :: r)
  | quoted {d : Nat} {q : Char} {b r : List Char} : q = '\'' ∨ q = '"' → q ∉ b → Directive d r →
      Directive d (q :: (b ++ q :: r))
  | comment {d : Nat} {b r : List Char} : UpTo ['-', '-', '>'] b → Directive d r →
      Directive d ('<' :: '!' :: '-' :: '-' :: (b ++ '-' :: '-' :: '>' :: r))
  | down {d : Nat} {r : List Char} : (∀ r', r ≠ '!' :: '-' :: '-' :: r') → Directive (d + 1) r →
      Directive d ('<' :: r)
  | char {d : Nat} {c : Char} {r : List Char} : c ≠ '<' → c ≠ '>' → c ≠ '\'' → c ≠ '"' → Directive d r →
      Directive d (c :: r)

variable [XmlLang]

/-- A name and the qualified name it is. -/
def Name (n : List Char) (q : QName) : Prop :=
  (∀ c ∈ n, nameLike c = true) ∧ isName n = true ∧ Split n q

omit [XmlLang] in
/-- The value of an attribute in quotes. -/
inductive Value : List Char → List Char → Prop
  | mk {q : Char} {raw v : List Char} : q = '"' ∨ q = '\'' → q ∉ raw → '<' ∉ raw → Data raw v →
      Value (q :: (raw ++ [q])) v

/-- The part of a start tag after the name: attributes, and whether it ends in `/>`. -/
inductive Attrs : List Char → List (QName × List Char) → Bool → Prop
  | close {w : List Char} : Blank w → Attrs (w ++ ['>']) [] false
  | closeEmpty {w : List Char} : Blank w → Attrs (w ++ ['/', '>']) [] true
  | attr {w₁ n w₂ w₃ q r : List Char} {m : QName} {v : List Char} {as : List (QName × List Char)} {e : Bool} :
      Blank w₁ → Name n m → Blank w₂ → Blank w₃ → Value q v → Attrs r as e →
      Attrs (w₁ ++ (n ++ (w₂ ++ '=' :: (w₃ ++ (q ++ r))))) ((m, v) :: as) e

/-- A start tag: its name, its attributes, and whether it is also the end tag. -/
inductive StartTag : List Char → QName → List (QName × List Char) → Bool → Prop
  | mk {n r : List Char} {m : QName} {as : List (QName × List Char)} {e : Bool} :
      Name n m → NameEnds r → Attrs r as e → StartTag ('<' :: (n ++ r)) m as e

/-- An end tag. -/
inductive EndTag : List Char → QName → Prop
  | mk {n w : List Char} {m : QName} : Name n m → Blank w → EndTag ('<' :: '/' :: (n ++ (w ++ ['>']))) m

/-- What is ignored: comments, processing instructions and directives. -/
inductive Misc : List Char → Prop
  | comment {b : List Char} : UpTo ['-', '-'] b → Misc ('<' :: '!' :: '-' :: '-' :: (b ++ ['-', '-', '>']))
  | inst {n w b : List Char} : (∀ c ∈ n, nameLike c = true) → isName n = true → NameEnds (w ++ (b ++ ['?', '>'])) →
      Blank w → BlankEnds b → UpTo ['?', '>'] b → (n = ['x', 'm', 'l'] → XmlLang.declaration b = true) →
      Misc ('<' :: '?' :: (n ++ (w ++ (b ++ ['?', '>']))))
  | directive {c : Char} {r : List Char} : c ≠ '-' → c ≠ '[' → Directive 0 r → Misc ('<' :: '!' :: c :: r)

omit [XmlLang] in
/-- A text between tags: as long as possible, and without `]]>`. -/
def Text (raw s : List Char) : Prop :=
  raw ≠ [] ∧ '<' ∉ raw ∧ (∀ u v, raw ≠ u ++ [']', ']', '>'] ++ v) ∧ Data raw s

omit [XmlLang] in
/-- A `CDATA` section. -/
inductive CData : List Char → List Char → Prop
  | mk {b s : List Char} : UpTo [']', ']', '>'] b → Literal b s →
      CData ('<' :: '!' :: '[' :: 'C' :: 'D' :: 'A' :: 'T' :: 'A' :: '[' :: (b ++ [']', ']', '>'])) s

/-- The end of the text, or the beginning of a tag. -/
def TextEnds (cs : List Char) : Prop := ∀ c r, cs = c :: r → c = '<'

/-- The attributes of an element by their local names. -/
def locals (as : List (QName × List Char)) : List (String × String) :=
  as.map fun a => (String.ofList a.1.loc, String.ofList a.2)

/-- The content of an element. -/
inductive Content : List Char → List Xml → Prop
  | nil : Content [] []
  | text {t s r : List Char} {ks : List Xml} : Text t s → TextEnds r → Content r ks →
      Content (t ++ r) (.text (String.ofList s) :: ks)
  | cdata {t s r : List Char} {ks : List Xml} : CData t s → Content r ks →
      Content (t ++ r) (.text (String.ofList s) :: ks)
  | misc {t r : List Char} {ks : List Xml} : Misc t → Content r ks → Content (t ++ r) ks
  | empty {t r : List Char} {n : QName} {as : List (QName × List Char)} {ks : List Xml} :
      StartTag t n as true → Content r ks →
      Content (t ++ r) (.elem (String.ofList n.loc) (locals as) [] :: ks)
  | elem {t b e r : List Char} {n : QName} {as : List (QName × List Char)} {ls ks : List Xml} :
      StartTag t n as false → Content b ls → EndTag e n → Content r ks →
      Content (t ++ (b ++ (e ++ r))) (.elem (String.ofList n.loc) (locals as) ls :: ks)

/-- What may precede the root element. -/
inductive Prolog : List Char → Prop
  | nil : Prolog []
  | text {t s r : List Char} : Text t s → TextEnds r → Prolog r → Prolog (t ++ r)
  | cdata {t s r : List Char} : CData t s → Prolog r → Prolog (t ++ r)
  | misc {t r : List Char} : Misc t → Prolog r → Prolog (t ++ r)

/-- The name space that the attributes of an element give to a prefix: the value of the last declaration. -/
inductive Declares : List (QName × List Char) → QName → List Char → Prop
  | mk {as bs : List (QName × List Char)} {n : QName} {v : List Char} : (∀ b ∈ bs, b.1 ≠ n) →
      Declares (as ++ (n, v) :: bs) n v

/-- The name space of the root element. -/
inductive Space (n : QName) (as : List (QName × List Char)) : List Char → Prop
  | xmlns : n.pre = "xmlns".toList → Space n as "xmlns".toList
  | xmlnsElem : n = ⟨[], "xmlns".toList⟩ → Space n as []
  | default {v : List Char} : n.pre = [] → n.loc ≠ "xmlns".toList → Declares as ⟨[], "xmlns".toList⟩ v → Space n as v
  | noDefault : n.pre = [] → n.loc ≠ "xmlns".toList → (∀ a ∈ as, a.1 ≠ ⟨[], "xmlns".toList⟩) → Space n as []
  | pref {p v : List Char} : n.pre ≠ [] → n.pre ≠ "xmlns".toList →
      p = (if n.pre = "xml".toList then "http://www.w3.org/XML/1998/namespace".toList else n.pre) →
      Declares as ⟨"xmlns".toList, p⟩ v → Space n as v
  | noPref {p : List Char} : n.pre ≠ [] → n.pre ≠ "xmlns".toList →
      p = (if n.pre = "xml".toList then "http://www.w3.org/XML/1998/namespace".toList else n.pre) →
      (∀ a ∈ as, a.1 ≠ ⟨"xmlns".toList, p⟩) → Space n as p

/-- A document: what precedes the root element, the root element, and anything. -/
inductive Document : List Char → XmlDoc → Prop
  | empty {p t r : List Char} {n : QName} {as : List (QName × List Char)} {v : List Char} :
      Prolog p → StartTag t n as true → Space n as v →
      Document (p ++ (t ++ r)) ⟨String.ofList v, .elem (String.ofList n.loc) (locals as) []⟩
  | elem {p t b e r : List Char} {n : QName} {as : List (QName × List Char)} {v : List Char} {ks : List Xml} :
      Prolog p → StartTag t n as false → Content b ks → EndTag e n → Space n as v →
      Document (p ++ (t ++ (b ++ (e ++ r)))) ⟨String.ofList v, .elem (String.ofList n.loc) (locals as) ks⟩

end Verif.XmlGrammar
