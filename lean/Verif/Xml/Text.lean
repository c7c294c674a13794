import Verif.Xml.Value

/-!
# The text of XML documents

What `encoding/xml` writes for a tree of elements (`marshal.go` and `EscapeText` in `xml.go` of the Go standard
library) and how it reads a text (`xml.go`: `rawToken`, `Token`, in strict mode).  Texts are sequences of Unicode
characters; their encoding in UTF-8 is not modelled (bytes that are not UTF-8 are an error when they are read, and
are replaced by U+FFFD when they are written).
-/

namespace Verif.XmlText

open Xml (isChar fixChar)

/-- What the theorems leave open about `encoding/xml`: which characters outside ASCII may be in a name (the tables
`first` and `second` of `xml.go`), and which contents of an XML declaration are accepted (`procInst`; the version
has to be 1.0 and the encoding UTF-8).  The declaration that `encoding/xml` writes is accepted. -/
class XmlLang where
  first : Char → Bool
  second : Char → Bool
  declaration : List Char → Bool
  header : declaration "version=\"1.0\" encoding=\"UTF-8\"".toList = true

/-! ## Writing -/

/-- One character of a text or of the value of an attribute: `escapeText`, with `escapeNewline`. -/
def escapeChar (c : Char) : List Char :=
  if c = '"' then ['&', '#', '3', '4', ';']
  else if c = '\'' then ['&', '#', '3', '9', ';']
  else if c = '&' then ['&', 'a', 'm', 'p', ';']
  else if c = '<' then ['&', 'l', 't', ';']
  else if c = '>' then ['&', 'g', 't', ';']
  else if c = '\t' then ['&', '#', 'x', '9', ';']
  else if c = '\n' then ['&', '#', 'x', 'A', ';']
  else if c = '\r' then ['&', '#', 'x', 'D', ';']
  else if isChar c then [c]
  else [Char.ofNat 0xFFFD]

/-- `EscapeText`, `EscapeString`. -/
def escape : List Char → List Char
  | [] => []
  | c :: cs => escapeChar c ++ escape cs

/-- The fields of `printer` that decide about indentation. -/
structure Printer where
  depth : Nat := 0
  indentedIn : Bool := false
  putNewline : Bool := false
  deriving DecidableEq

/-- `printer.writeIndent` with an empty prefix and, if the output is indented, two spaces (encode.go:105-107).
`up` is a positive argument (before a start tag), otherwise it is negative (before an end tag). -/
def writeIndent (pretty up : Bool) (p : Printer) : List Char × Printer :=
  if !pretty then ([], p)
  else if !up && p.indentedIn then ([], { p with depth := p.depth - 1, indentedIn := false })
  else
    let p := if up then p else { p with depth := p.depth - 1, indentedIn := false }
    let nl := if p.putNewline then ['\n'] else []
    let p := { p with putNewline := true }
    (nl ++ List.replicate (2 * p.depth) ' ',
      if up then { p with depth := p.depth + 1, indentedIn := true } else p)

/-- The attributes of a start tag: `printer.writeStart`. -/
def attrText : List (String × String) → List Char
  | [] => []
  | (n, v) :: as => ' ' :: (n.toList ++ '=' :: '"' :: (escape v.toList ++ '"' :: attrText as))

mutual
/-- An element or a text: `printer.writeStart`, `printer.writeEnd`, `EscapeText`. -/
def print (pretty : Bool) : Xml → Printer → List Char × Printer
  | .text s, p => (escape s.toList, p)
  | .elem n as ks, p =>
    let i := writeIndent pretty true p
    let b := printL pretty ks i.2
    let j := writeIndent pretty false b.2
    (i.1 ++ '<' :: (n.toList ++ attrText as ++ '>' :: (b.1 ++ j.1 ++ '<' :: '/' :: (n.toList ++ ['>']))), j.2)
/-- The content of an element. -/
def printL (pretty : Bool) : List Xml → Printer → List Char × Printer
  | [], p => ([], p)
  | k :: ks, p =>
    let a := print pretty k p
    let b := printL pretty ks a.2
    (a.1 ++ b.1, b.2)
end

/-- `xml.Header`. -/
def header : List Char := "<?xml version=\"1.0\" encoding=\"UTF-8\"?>\n".toList

/-! ## Reading -/

/-- `Decoder.space`. -/
def isSpace (c : Char) : Bool := c = ' ' || c = '\r' || c = '\n' || c = '\t'

/-- `Decoder.space`. -/
def skipSpace (cs : List Char) : List Char := cs.dropWhile isSpace

/-- `isNameByte`. -/
def isNameByte (c : Char) : Bool := c.isAlphanum || c = '_' || c = ':' || c = '.' || c = '-'

/-- The characters that `Decoder.readName` takes: all but the ASCII characters that cannot be in a name. -/
def nameLike (c : Char) : Bool := 128 ≤ c.toNat || isNameByte c

/-- `Decoder.readName`; there has to be something after the name. -/
def readName (cs : List Char) : Option (List Char × List Char) :=
  if cs.takeWhile nameLike = [] ∨ cs.dropWhile nameLike = [] then none
  else some (cs.takeWhile nameLike, cs.dropWhile nameLike)

/-- The name of an element or attribute before name spaces are resolved: `Name` with a prefix as its name space. -/
structure QName where
  pre : List Char
  loc : List Char
  deriving DecidableEq, Repr

/-- `Decoder.nsname`, after the name has been read. -/
def splitName (n : List Char) : Option QName :=
  if 1 < n.count ':' then none
  else if ':' ∉ n ∨ n.takeWhile (· ≠ ':') = [] ∨ (n.dropWhile (· ≠ ':')).tail = [] then some ⟨[], n⟩
  else some ⟨n.takeWhile (· ≠ ':'), (n.dropWhile (· ≠ ':')).tail⟩

/-- The first occurrence of a pattern: the text before it and after it. -/
def cutAt (pat : List Char) : List Char → Option (List Char × List Char)
  | [] => none
  | c :: cs =>
    if pat.isPrefixOf (c :: cs) then some ([], (c :: cs).drop pat.length)
    else (cutAt pat cs).map fun p => (c :: p.1, p.2)

/-- The text after a given prefix. -/
def stripPrefix (pat cs : List Char) : Option (List Char) :=
  if pat.isPrefixOf cs then some (cs.drop pat.length) else none

/-- The value of a hexadecimal digit. -/
def hexVal (c : Char) : Option Nat :=
  if '0' ≤ c ∧ c ≤ '9' then some (c.toNat - 48)
  else if 'a' ≤ c ∧ c ≤ 'f' then some (c.toNat - 87)
  else if 'A' ≤ c ∧ c ≤ 'F' then some (c.toNat - 55)
  else none

/-- The value of a decimal digit. -/
def decVal (c : Char) : Option Nat := if '0' ≤ c ∧ c ≤ '9' then some (c.toNat - 48) else none

/-- The number that digits denote (`strconv.ParseUint`, without its limit of 64 bits; larger numbers are refused
anyway). -/
def digits (base : Nat) (val : Char → Option Nat) (ds : List Char) : Nat :=
  ds.foldl (fun n d => n * base + (val d).getD 0) 0

/-- `string(rune(n))`: surrogates become U+FFFD. -/
def runeOf (n : Nat) : Char := if 0xD800 ≤ n ∧ n ≤ 0xDFFF then Char.ofNat 0xFFFD else Char.ofNat n

/-- A numeric character reference after `&#` or `&#x`. -/
def pNumRef (base : Nat) (val : Char → Option Nat) (cs : List Char) : Option (Char × List Char) :=
  match cs.dropWhile fun c => (val c).isSome with
  | ';' :: r =>
    if cs.takeWhile (fun c => (val c).isSome) = [] then none
    else if digits base val (cs.takeWhile fun c => (val c).isSome) ≤ 0x10FFFF then
      some (runeOf (digits base val (cs.takeWhile fun c => (val c).isSome)), r)
    else none
  | _ => none

/-- The predeclared entities. -/
def entity (n : List Char) : Option Char :=
  if n = ['l', 't'] then some '<' else if n = ['g', 't'] then some '>' else if n = ['a', 'm', 'p'] then some '&'
  else if n = ['a', 'p', 'o', 's'] then some '\'' else if n = ['q', 'u', 'o', 't'] then some '"' else none

/-- A reference after `&`: the character it denotes, and the text after it. -/
def pRef (cs : List Char) : Option (Char × List Char) :=
  match cs with
  | '#' :: 'x' :: r => pNumRef 16 hexVal r
  | '#' :: r => pNumRef 10 decVal r
  | cs =>
    match cs.dropWhile nameLike with
    | ';' :: r => (entity (cs.takeWhile nameLike)).map (·, r)
    | _ => none

/-- What a text or the value of an attribute denotes: references are replaced by characters, and line ends by
`\n`.  The first argument bounds the recursion. -/
def unescape : Nat → List Char → Option (List Char)
  | _, [] => some []
  | 0, _ :: _ => none
  | f + 1, c :: cs =>
    if c = '&' then
      match pRef cs with
      | none => none
      | some (d, r) => (unescape f r).map (d :: ·)
    else if c = '\r' then
      match cs with
      | '\n' :: r => (unescape f r).map ('\n' :: ·)
      | r => (unescape f r).map ('\n' :: ·)
    else (unescape f cs).map (c :: ·)

/-- `Decoder.text` on the characters up to its end: what they denote, if XML allows all its characters. -/
def denotes (raw : List Char) : Option (List Char) :=
  match unescape raw.length raw with
  | none => none
  | some d => if d.all isChar then some d else none

/-- Line ends become `\n`. -/
def lineEnds : List Char → List Char
  | [] => []
  | c :: cs =>
    if c = '\r' then
      match cs with
      | '\n' :: r => '\n' :: lineEnds r
      | r => '\n' :: lineEnds r
    else c :: lineEnds cs

/-- A token: a start tag (with its attributes, and whether it is also the end tag), an end tag, a text, or
something that `xml.Unmarshal` ignores. -/
inductive Tok where
  | start (n : QName) (as : List (QName × List Char)) (empty : Bool)
  | stop (n : QName)
  | text (s : List Char)
  | misc

variable [XmlLang]

/-- Whether a character may begin a name. -/
def nameFirst (c : Char) : Bool := if c.toNat < 128 then c.isAlpha || c = '_' || c = ':' else XmlLang.first c

/-- Whether a character may be in a name after the first. -/
def nameNext (c : Char) : Bool :=
  nameFirst c || if c.toNat < 128 then c.isDigit || c = '.' || c = '-' else XmlLang.second c

/-- `isName`. -/
def isName : List Char → Bool
  | [] => false
  | c :: cs => nameFirst c && cs.all nameNext

/-- `Decoder.name`. -/
def pName (cs : List Char) : Option (List Char × List Char) :=
  match readName cs with
  | some (n, r) => if isName n then some (n, r) else none
  | none => none

/-- `Decoder.nsname`. -/
def pQName (cs : List Char) : Option (QName × List Char) :=
  match pName cs with
  | some (n, r) => (splitName n).map (·, r)
  | none => none

omit [XmlLang] in
/-- The quoted value of an attribute: `Decoder.attrval` in strict mode. -/
def pAttVal (cs : List Char) : Option (List Char × List Char) :=
  match cs with
  | [] => none
  | q :: cs =>
    if q = '"' ∨ q = '\'' then
      match cs.dropWhile fun c => c ≠ q ∧ c ≠ '<' with
      | c :: r => if c = q then (denotes (cs.takeWhile fun c => c ≠ q ∧ c ≠ '<')).map (·, r) else none
      | [] => none
    else none

/-- The attributes of a start tag and its end: whether it is also the end tag, and the text after it. -/
def pAttrs : Nat → List Char → Option (List (QName × List Char) × Bool × List Char)
  | 0, _ => none
  | f + 1, cs =>
    match skipSpace cs with
    | [] => none
    | c :: r =>
      if c = '/' then
        match r with
        | '>' :: r => some ([], true, r)
        | _ => none
      else if c = '>' then some ([], false, r)
      else
        match pQName (c :: r) with
        | none => none
        | some (n, r) =>
          match skipSpace r with
          | '=' :: r =>
            match pAttVal (skipSpace r) with
            | none => none
            | some (v, r) => (pAttrs f r).map fun p => ((n, v) :: p.1, p.2)
          | _ => none

omit [XmlLang] in
/-- The rest of a directive (`<!DOCTYPE …>` and the like): angle brackets nest, quoted ones do not count, and
comments are skipped. -/
def directive : Nat → Option Char → Nat → List Char → Option (List Char)
  | 0, _, _, _ => none
  | _ + 1, _, _, [] => none
  | f + 1, some q, d, c :: cs => directive f (if c = q then none else some q) d cs
  | f + 1, none, d, c :: cs =>
    if c = '>' then if d = 0 then some cs else directive f none (d - 1) cs
    else if c = '\'' ∨ c = '"' then directive f (some c) d cs
    else if c = '<' then
      match stripPrefix ['!', '-', '-'] cs with
      | some r =>
        match cutAt ['-', '-', '>'] r with
        | none => none
        | some (_, r) => directive f none d r
      | none => directive f none (d + 1) cs
    else directive f none d cs

/-- A processing instruction after `<?`. -/
def pInst (cs : List Char) : Option (List Char) :=
  match pName cs with
  | none => none
  | some (n, r) =>
    match cutAt ['?', '>'] (skipSpace r) with
    | none => none
    | some (d, r) => if n = ['x', 'm', 'l'] ∧ !XmlLang.declaration d then none else some r

omit [XmlLang] in
/-- What follows `<!`: a comment, a `CDATA` section or a directive. -/
def pBang (cs : List Char) : Option (Tok × List Char) :=
  match cs with
  | [] => none
  | c :: r =>
    if c = '-' then
      match r with
      | '-' :: r =>
        match cutAt ['-', '-'] r with
        | some (_, '>' :: r) => some (.misc, r)
        | _ => none
      | _ => none
    else if c = '[' then
      match stripPrefix ['C', 'D', 'A', 'T', 'A', '['] r with
      | none => none
      | some r =>
        match cutAt [']', ']', '>'] r with
        | none => none
        | some (raw, r) => if (lineEnds raw).all isChar then some (.text (lineEnds raw), r) else none
    else (directive (r.length + 1) none 0 r).map (.misc, ·)

/-- `Decoder.rawToken`. -/
def token (cs : List Char) : Option (Tok × List Char) :=
  match cs with
  | [] => none
  | c :: cs =>
    if c = '<' then
      match cs with
      | [] => none
      | d :: ds =>
        if d = '/' then
          match pQName ds with
          | none => none
          | some (n, r) =>
            match skipSpace r with
            | '>' :: r => some (.stop n, r)
            | _ => none
        else if d = '?' then (pInst ds).map (.misc, ·)
        else if d = '!' then pBang ds
        else
          match pQName (d :: ds) with
          | none => none
          | some (n, r) => (pAttrs (r.length + 1) r).map fun p => (.start n p.1 p.2.1, p.2.2)
    else
      if (cutAt [']', ']', '>'] ((c :: cs).takeWhile (· ≠ '<'))).isSome then none
      else (denotes ((c :: cs).takeWhile (· ≠ '<'))).map fun d => (.text d, (c :: cs).dropWhile (· ≠ '<'))

/-- The attributes of an element by their local names, as `xml.Unmarshal` compares them with the tags of this
library. -/
def localAttrs (as : List (QName × List Char)) : List (String × String) :=
  as.map fun a => (String.ofList a.1.loc, String.ofList a.2)

/-- The content of an element up to its end tag: the content, the name in the end tag, and the text after it
(`Decoder.Token`, `Decoder.popElement`, `Decoder.Skip`).  The first argument bounds the recursion. -/
def pKids : Nat → List Char → Option (List Xml × QName × List Char)
  | 0, _ => none
  | f + 1, cs =>
    match token cs with
    | none => none
    | some (.misc, r) => pKids f r
    | some (.text s, r) => (pKids f r).map fun p => (.text (String.ofList s) :: p.1, p.2)
    | some (.stop n, r) => some ([], n, r)
    | some (.start n as true, r) =>
      (pKids f r).map fun p => (.elem (String.ofList n.loc) (localAttrs as) [] :: p.1, p.2)
    | some (.start n as false, r) =>
      match pKids f r with
      | none => none
      | some (ks, m, r) =>
        if m = n then (pKids f r).map fun p => (.elem (String.ofList n.loc) (localAttrs as) ks :: p.1, p.2)
        else none

omit [XmlLang] in
/-- The value of the last attribute with this name. -/
def lastAttr (n : QName) : List (QName × List Char) → Option (List Char)
  | [] => none
  | a :: as =>
    match lastAttr n as with
    | some v => some v
    | none => if a.1 = n then some a.2 else none

omit [XmlLang] in
/-- The name space of the root element: `Decoder.translate`. -/
def rootSpace (n : QName) (as : List (QName × List Char)) : List Char :=
  if n.pre = "xmlns".toList then n.pre
  else if n.pre = [] then
    if n.loc = "xmlns".toList then [] else (lastAttr ⟨[], "xmlns".toList⟩ as).getD []
  else
    let p := if n.pre = "xml".toList then "http://www.w3.org/XML/1998/namespace".toList else n.pre
    (lastAttr ⟨"xmlns".toList, p⟩ as).getD p

/-- The first element: everything before it that is not an end tag is skipped (`Decoder.unmarshal` without a start
element), and what follows it is not read. -/
def pRoot : Nat → List Char → Option XmlDoc
  | 0, _ => none
  | f + 1, cs =>
    match token cs with
    | none => none
    | some (.misc, r) => pRoot f r
    | some (.text _, r) => pRoot f r
    | some (.stop _, _) => none
    | some (.start n as true, _) =>
      some ⟨String.ofList (rootSpace n as), .elem (String.ofList n.loc) (localAttrs as) []⟩
    | some (.start n as false, r) =>
      match pKids f r with
      | none => none
      | some (ks, m, _) =>
        if m = n then some ⟨String.ofList (rootSpace n as), .elem (String.ofList n.loc) (localAttrs as) ks⟩
        else none

/-- The document that `xml.Decoder.Decode` sees in a text. -/
def parse (cs : List Char) : Option XmlDoc := pRoot (cs.length + 1) cs

end Verif.XmlText
