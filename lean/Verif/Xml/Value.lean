/-!
# XML elements

An XML document as the decoder of `encoding/xml` presents it to `xml.Unmarshal`: elements with their
attributes and content, without comments, processing instructions and directives, which `xml.Unmarshal`
ignores.  Names are local names: no tag of this library names a namespace, so `xml.Unmarshal` compares local
names only.  (The namespace of the root element is kept in `Verif.XmlDoc`.)
-/

namespace Verif

/-- The content of an element: elements and character data. -/
inductive Xml where
  | elem (name : String) (attrs : List (String × String)) (kids : List Xml)
  | text (s : String)
  deriving Repr, Inhabited

namespace Xml

/-- The name of an element. -/
def name : Xml → String
  | .elem n _ _ => n
  | .text _ => ""

/-- The attributes of an element, in order. -/
def attrs : Xml → List (String × String)
  | .elem _ as _ => as
  | .text _ => []

/-- The content of an element. -/
def kids : Xml → List Xml
  | .elem _ _ ks => ks
  | .text _ => []

/-- Whether this is an element with the given name. -/
def isElem (n : String) : Xml → Bool
  | .elem m _ _ => m = n
  | .text _ => false

/-- The character data of a content: all the text directly in it, run together. -/
def textOf : List Xml → String
  | [] => ""
  | .text s :: ks => s ++ textOf ks
  | .elem _ _ _ :: ks => textOf ks

/-- A text as content. -/
def textKids (s : String) : List Xml := if s = "" then [] else [.text s]

mutual
/-- How deep elements nest. -/
def depth : Xml → Nat
  | .elem _ _ ks => depthL ks + 1
  | .text _ => 0
/-- How deep elements nest in a content. -/
def depthL : List Xml → Nat
  | [] => 0
  | k :: ks => max k.depth (depthL ks)
end

mutual
/-- Equality of XML content. -/
def beq : Xml → Xml → Bool
  | .elem n as ks, .elem m bs ls => n = m ∧ as = bs ∧ beqL ks ls
  | .text s, .text t => s = t
  | _, _ => false
/-- Equality of XML content. -/
def beqL : List Xml → List Xml → Bool
  | [], [] => true
  | k :: ks, l :: ls => beq k l && beqL ks ls
  | _, _ => false
end

/-- The characters XML 1.0 allows (`isInCharacterRange` of `encoding/xml`). -/
def isChar (c : Char) : Bool :=
  c = '\t' ∨ c = '\n' ∨ c = '\r' ∨ (0x20 ≤ c.toNat ∧ c.toNat ≤ 0xD7FF) ∨
    (0xE000 ≤ c.toNat ∧ c.toNat ≤ 0xFFFD) ∨ (0x10000 ≤ c.toNat ∧ c.toNat ≤ 0x10FFFF)

/-- `encoding/xml` writes U+FFFD for a character XML does not allow. -/
def fixChar (c : Char) : Char := if isChar c then c else '�'

/-- What a string becomes when `xml.EscapeText` has written it and it is read back. -/
def sanitize (s : String) : String := String.ofList (s.toList.map fixChar)

/-- `unicode.IsSpace`. -/
def isSpace (c : Char) : Bool :=
  (9 ≤ c.toNat ∧ c.toNat ≤ 13) ∨ c.toNat = 0x20 ∨ c.toNat = 0x85 ∨ c.toNat = 0xA0 ∨ c.toNat = 0x1680 ∨
    (0x2000 ≤ c.toNat ∧ c.toNat ≤ 0x200A) ∨ c.toNat = 0x2028 ∨ c.toNat = 0x2029 ∨ c.toNat = 0x202F ∨
    c.toNat = 0x205F ∨ c.toNat = 0x3000

/-- `strings.TrimSpace` on the characters. -/
def trimChars (cs : List Char) : List Char := ((cs.dropWhile isSpace).reverse.dropWhile isSpace).reverse

/-- `strings.TrimSpace`. -/
def trim (s : String) : String := String.ofList (trimChars s.toList)

end Xml

/-- A document: the root element and the namespace its name is in. -/
structure XmlDoc where
  space : String := ""
  root : Xml
  deriving Repr

end Verif
