import Verif.Model.Types
import Verif.Model.Decimal
import Verif.Json.Number
import Verif.Json.Codec
import Verif.Xml.Value

/-!
# How `encoding/xml` encodes and decodes values of a Go type

The combinators model the reflection of `encoding/xml` (`marshal.go`, `read.go`, `typeinfo.go` of the Go
standard library) as far as the types of this library use it: strings, booleans and numbers as attributes,
as character data and as elements, pointers, slices behind pointers, `a>b` paths of length two, and structs.
`Verif.Xml.Structs` builds one codec per Go type out of them.

As in the model of JSON, `none` is "an error is returned", and the partly filled destination of a failing
`Unmarshal` is not modelled.  The limit of `encoding/xml` on the nesting of the decoded value (10000) is not
modelled.
-/

namespace Verif

open Xml (sanitize trim trimChars textOf textKids)

/-- The XML behaviour of a Go type that is written as text: `marshalSimple` and `copyValue`.  `norm` and
`good` are not code: they say what a value becomes when it is written and read back, and when. -/
structure XText (α : Type) where
  /-- The text written (after escaping and unescaping). -/
  enc : α → String
  /-- `copyValue`; it overwrites the destination. -/
  dec : String → Option α
  /-- Go's zero value of the type. -/
  zero : α
  /-- `isEmptyValue`. -/
  empty : α → Bool
  norm : α → α := id
  good : α → Prop := fun _ => True

/-- Not a number: the exponent is all ones and the fraction is not zero (IEEE 754). -/
def F32.isNaN (x : F32) : Bool := x.bits.toNat / 2 ^ 23 % 256 = 255 ∧ x.bits.toNat % 2 ^ 23 ≠ 0
/-- Not a number: the exponent is all ones and the fraction is not zero (IEEE 754). -/
def F64.isNaN (x : F64) : Bool := x.bits.toNat / 2 ^ 52 % 2048 = 2047 ∧ x.bits.toNat % 2 ^ 52 ≠ 0

/-- The NaN that `strconv.ParseFloat("NaN", 32)` yields, converted to `float32`. -/
def F32.nan : F32 := ⟨0x7FC00000⟩
/-- The NaN that `strconv.ParseFloat("NaN", 64)` yields (`math.NaN`). -/
def F64.nan : F64 := ⟨0x7FF8000000000001⟩

/-- What a `float32` becomes when it is printed and parsed: only the payload of a NaN is lost. -/
def F32.canonNaN (x : F32) : F32 := if x.isNaN then F32.nan else x
/-- What a `float64` becomes when it is printed and parsed: only the payload of a NaN is lost. -/
def F64.canonNaN (x : F64) : F64 := if x.isNaN then F64.nan else x

/-- The characters of numbers as `strconv.FormatFloat` prints them, including `NaN`, `+Inf` and `-Inf`. -/
def isFloatChar (c : Char) : Bool := isDigitChar c || c ∈ ['+', '-', '.', 'e', 'N', 'a', 'I', 'n', 'f']

/-- `strconv.FormatFloat(x, 'g', -1, bits)` and `strconv.ParseFloat` as `encoding/xml` uses them.  The
digits Go chooses are not modelled; everything is proved for any printer and parser with these documented
properties. -/
class XFloatIO where
  fmt32 : F32 → String
  parse32 : String → Option F32
  fmt64 : F64 → String
  parse64 : String → Option F64
  parse_fmt32 : ∀ x, parse32 (fmt32 x) = some x.canonNaN
  parse_fmt64 : ∀ x, parse64 (fmt64 x) = some x.canonNaN
  fmt32_ne : ∀ x, fmt32 x ≠ ""
  fmt64_ne : ∀ x, fmt64 x ≠ ""
  fmt32_chars : ∀ x, ∀ c ∈ (fmt32 x).toList, isFloatChar c = true
  fmt64_chars : ∀ x, ∀ c ∈ (fmt64 x).toList, isFloatChar c = true

namespace XText

/-- Go `string` and the named string types. -/
def string : XText String where
  enc := sanitize
  dec s := some s
  zero := ""
  empty s := s = ""
  norm := sanitize

/-- cyclonedx.go:155 `type BOMReference string`, where it is an attribute. -/
def bomReference : XText BOMReference where
  enc r := sanitize r.val
  dec s := some ⟨s⟩
  zero := ⟨""⟩
  empty r := r.val = ""
  norm r := ⟨sanitize r.val⟩

/-- Go `bool`: `strconv.FormatBool`; `strconv.ParseBool` of the trimmed text, or `false` if the text is
empty. -/
def bool : XText Bool where
  enc b := if b then "true" else "false"
  dec s :=
    if s = "" then some false
    else if trim s ∈ ["1", "t", "T", "TRUE", "true", "True"] then some true
    else if trim s ∈ ["0", "f", "F", "FALSE", "false", "False"] then some false
    else none
  zero := false
  empty b := !b

/-- `strconv.ParseInt(s, 10, 64)`. -/
def parseInt (cs : List Char) : Option Int :=
  match cs with
  | '+' :: ds => (JCodec.parseNat ds).bind fun n => if InInt64 n then some (n : Int) else none
  | cs => JCodec.parseInt cs

/-- Go `int`: `strconv.FormatInt`; `strconv.ParseInt` of the trimmed text, or 0 if the text is empty. -/
def int : XText Int where
  enc i := String.ofList (intChars i)
  dec s := if s = "" then some 0 else parseInt (trimChars s.toList)
  zero := 0
  empty i := i = 0
  good i := InInt64 i

/-- Go `float32`. -/
def f32 [XFloatIO] : XText F32 where
  enc x := XFloatIO.fmt32 x
  dec s := if s = "" then some ⟨0⟩ else XFloatIO.parse32 (trim s)
  zero := ⟨0⟩
  empty x := x.bits = 0 ∨ x.bits = 0x80000000
  norm x := x.canonNaN

/-- Go `float64`. -/
def f64 [XFloatIO] : XText F64 where
  enc x := XFloatIO.fmt64 x
  dec s := if s = "" then some ⟨0⟩ else XFloatIO.parse64 (trim s)
  zero := ⟨0⟩
  empty x := x.bits = 0 ∨ x.bits = 0x8000000000000000
  norm x := x.canonNaN

end XText

/-- The XML behaviour of one Go type that is written as an element.  `enc`, `dec`, `zero` and `empty` are
the model of the code; `writes`, `norm`, `good` and `rename` are not code but describe it for the proofs. -/
structure XCodec (α : Type) where
  /-- `Encoder.EncodeElement` with a start element of this name: an error, or the element written, if any. -/
  enc : String → α → Option (Option Xml)
  /-- `Decoder.DecodeElement` of an element into a variable holding the second argument. -/
  dec : Xml → α → Option α
  /-- Go's zero value of the type. -/
  zero : α
  /-- `isEmptyValue`, which decides whether `omitempty` drops the field. -/
  empty : α → Bool
  /-- Whether an element is written at all. -/
  writes : α → Bool := fun _ => true
  /-- What reading back yields. -/
  norm : α → α := id
  /-- The values for which that is so. -/
  good : α → Prop := fun _ => True
  /-- The name of the element that is written. -/
  rename : String → String := id

/-- The XML behaviour of a field of a struct that is written as elements: the name of the elements it is
written as and read from, and what one such element does to the field. -/
structure XField (α : Type) where
  name : String
  enc : α → Option (List Xml)
  dec : Xml → α → Option α
  zero : α
  norm : α → α := id
  good : α → Prop := fun _ => True

/-- A type written as text, as an element: no attributes, the text as content. -/
def XCodec.simple {α : Type} (c : XText α) : XCodec α where
  enc n a := some (some (.elem n [] (textKids (c.enc a))))
  dec x _ := c.dec (textOf x.kids)
  zero := c.zero
  empty := c.empty
  norm := c.norm
  good := c.good

namespace XField

/-- The elements of the content of an element, one after the other. -/
def decAll {α : Type} (dec : Xml → α → Option α) : List Xml → α → Option α
  | [], a => some a
  | x :: xs, a =>
    match dec x a with
    | none => none
    | some a' => decAll dec xs a'

/-- A field of a type `T`, tag `xml:"n"` or `xml:"n,omitempty"`. -/
def plain {α : Type} (n : String) (oe : Bool) (c : XCodec α) : XField α where
  name := n
  enc a := if oe && c.empty a then some [] else (c.enc n a).map (·.toList)
  dec := c.dec
  zero := c.zero
  norm a := if (oe && c.empty a) || !c.writes a then c.zero else c.norm a
  good := c.good

/-- A field of a type `*T`: the nil pointer writes nothing (with or without `omitempty`); reading allocates
a value if the pointer is nil. -/
def ptr {α : Type} (n : String) (c : XCodec α) : XField (Option α) where
  name := n
  enc
    | none => some []
    | some a => (c.enc n a).map (·.toList)
  dec x old := (c.dec x (old.getD c.zero)).map some
  zero := none
  norm
    | none => none
    | some a => if c.writes a then some (c.norm a) else none
  good o := ∀ a ∈ o, c.good a

/-- The elements of a slice, one after the other; `omitempty` drops empty elements too, because
`marshalValue` applies it to every element of the slice. -/
def encList {α : Type} (n : String) (oe : Bool) (c : XCodec α) : List α → Option (List Xml)
  | [] => some []
  | a :: as =>
    if oe && c.empty a then encList n oe c as
    else
      match c.enc n a with
      | none => none
      | some o => (encList n oe c as).map (o.toList ++ ·)

/-- `append`, through a pointer that is allocated if it is nil. -/
def push {α : Type} (p : PSlice α) (a : α) : PSlice α := .list (p.elems ++ [a])

/-- What is left of the elements of a slice when they have been written and read back. -/
def normList {α : Type} (oe : Bool) (c : XCodec α) (as : List α) : List α :=
  (as.filter fun a => !((oe && c.empty a) || !c.writes a)).map c.norm

/-- A list nobody has appended to is the nil pointer. -/
def ofList {α : Type} : List α → PSlice α
  | [] => .nil
  | as => .list as

/-- A field of a type `*[]T`, tag `xml:"n"` or `xml:"n,omitempty"`: the elements of the slice are written
without an enclosing element; every element read is appended. -/
def list {α : Type} (n : String) (oe : Bool) (c : XCodec α) : XField (PSlice α) where
  name := n
  enc p := encList n oe c p.elems
  dec x old := (c.dec x c.zero).map (push old)
  zero := .nil
  norm p := ofList (normList oe c p.elems)
  good p := ∀ a ∈ p.elems, c.good a

/-- One element in the enclosing element of a list. -/
def decInner {α : Type} (n : String) (c : XCodec α) (x : Xml) (old : PSlice α) : Option (PSlice α) :=
  if x.isElem n then (c.dec x c.zero).map (push old) else some old

/-- A field of a type `*[]T`, tag `xml:"p>n"` or `xml:"p>n,omitempty"`: the enclosing element is written
unless the pointer is nil. -/
def nlist {α : Type} (p n : String) (oe : Bool) (c : XCodec α) : XField (PSlice α) where
  name := p
  enc
    | .nil => some []
    | as => (encList n oe c as.elems).map fun ks => [.elem p [] ks]
  dec x old := decAll (decInner n c) x.kids old
  zero := .nil
  norm as := if c.rename n = n then ofList (normList oe c as.elems) else .nil
  good as := ∀ a ∈ as.elems, c.good a

/-- A field of a type `*T`, tag `xml:"p>n"` or `xml:"p>n,omitempty"`. -/
def nptr {α : Type} (p n : String) (c : XCodec α) : XField (Option α) where
  name := p
  enc
    | none => some []
    | some a => (c.enc n a).map fun o => [.elem p [] o.toList]
  dec x old := decAll (fun k old => if k.isElem n then (c.dec k (old.getD c.zero)).map some else some old) x.kids old
  zero := none
  norm
    | none => none
    | some a => if c.writes a ∧ c.rename n = n then some (c.norm a) else none
  good o := ∀ a ∈ o, c.good a

/-- A field whose type is a pointer to a slice type with methods of its own (`*Licenses`,
`*EnvironmentVariables`). -/
def slice {α : Type} (n : String) (c : XCodec (List α)) : XField (PSlice α) where
  name := n
  enc
    | .nil => some []
    | as => (c.enc n as.elems).map (·.toList)
  dec x old := (c.dec x old.elems).map .list
  zero := .nil
  norm
    | .nil => .nil
    | as => if c.writes as.elems then .list (c.norm as.elems) else .nil
  good as := c.good as.elems

end XField

/-- The fields of a Go struct as `encoding/xml` sees them, in the order of declaration, for a struct whose
fields are collected in the nested product `β`.  `skip` is a field with the tag `xml:"-"`, `attr` an
attribute, `attrPtr` an attribute of a pointer type, `chardata` the character data, `elem` everything
written as elements. -/
inductive XFields : Type → Type 1
  | nil : XFields Unit
  | skip {α β : Type} (zero : α) (rest : XFields β) : XFields (α × β)
  | attr {α β : Type} (name : String) (omitempty : Bool) (c : XText α) (rest : XFields β) : XFields (α × β)
  | attrPtr {α β : Type} (name : String) (c : XText α) (rest : XFields β) : XFields (Option α × β)
  | chardata {β : Type} (rest : XFields β) : XFields (String × β)
  | elem {α β : Type} (f : XField α) (rest : XFields β) : XFields (α × β)

namespace XFields

/-- The zero value of the struct. -/
def zero : {β : Type} → XFields β → β
  | _, .nil => ()
  | _, .skip z F => (z, F.zero)
  | _, .attr _ _ c F => (c.zero, F.zero)
  | _, .attrPtr _ _ F => (none, F.zero)
  | _, .chardata F => ("", F.zero)
  | _, .elem f F => (f.zero, F.zero)

/-- The names of the attributes. -/
def attrNames : {β : Type} → XFields β → List String
  | _, .nil => []
  | _, .skip _ F => F.attrNames
  | _, .attr n _ _ F => n :: F.attrNames
  | _, .attrPtr n _ F => n :: F.attrNames
  | _, .chardata F => F.attrNames
  | _, .elem _ F => F.attrNames

/-- The names of the elements. -/
def elemNames : {β : Type} → XFields β → List String
  | _, .nil => []
  | _, .skip _ F => F.elemNames
  | _, .attr _ _ _ F => F.elemNames
  | _, .attrPtr _ _ F => F.elemNames
  | _, .chardata F => F.elemNames
  | _, .elem f F => f.name :: F.elemNames

/-- How many fields take the character data. -/
def texts : {β : Type} → XFields β → Nat
  | _, .nil => 0
  | _, .skip _ F => F.texts
  | _, .attr _ _ _ F => F.texts
  | _, .attrPtr _ _ F => F.texts
  | _, .chardata F => F.texts + 1
  | _, .elem _ F => F.texts

/-- The attributes `xml.Marshal` writes for a struct, in order of the fields. -/
def encAttrs : {β : Type} → XFields β → β → List (String × String)
  | _, .nil, _ => []
  | _, .skip _ F, b => F.encAttrs b.2
  | _, .attr n oe c F, b => if oe && c.empty b.1 then F.encAttrs b.2 else (n, c.enc b.1) :: F.encAttrs b.2
  | _, .attrPtr n c F, b => match b.1 with
    | none => F.encAttrs b.2
    | some a => (n, c.enc a) :: F.encAttrs b.2
  | _, .chardata F, b => F.encAttrs b.2
  | _, .elem _ F, b => F.encAttrs b.2

/-- The content `xml.Marshal` writes for a struct, in order of the fields. -/
def encKids : {β : Type} → XFields β → β → Option (List Xml)
  | _, .nil, _ => some []
  | _, .skip _ F, b => F.encKids b.2
  | _, .attr _ _ _ F, b => F.encKids b.2
  | _, .attrPtr _ _ F, b => F.encKids b.2
  | _, .chardata F, b => (F.encKids b.2).map (textKids (sanitize b.1) ++ ·)
  | _, .elem f F, b =>
    match f.enc b.1 with
    | none => none
    | some ks => (F.encKids b.2).map (ks ++ ·)

/-- What one attribute does to the struct: the field with this name takes the value.  (Go gives the value
to every field with the name; no struct of this library has two.) -/
def setAttr : {β : Type} → XFields β → String × String → β → Option β
  | _, .nil, _, b => some b
  | _, .skip _ F, kv, b => (F.setAttr kv b.2).map (b.1, ·)
  | _, .attr n _ c F, kv, b =>
    if kv.1 = n then (c.dec kv.2).map (·, b.2) else (F.setAttr kv b.2).map (b.1, ·)
  | _, .attrPtr n c F, kv, b =>
    if kv.1 = n then (c.dec kv.2).map (some ·, b.2) else (F.setAttr kv b.2).map (b.1, ·)
  | _, .chardata F, kv, b => (F.setAttr kv b.2).map (b.1, ·)
  | _, .elem _ F, kv, b => (F.setAttr kv b.2).map (b.1, ·)

/-- What one child does to the struct: the first field with its name takes it; an element without a field
is skipped, and text is collected separately. -/
def setKid : {β : Type} → XFields β → Xml → β → Option β
  | _, .nil, _, b => some b
  | _, .skip _ F, x, b => (F.setKid x b.2).map (b.1, ·)
  | _, .attr _ _ _ F, x, b => (F.setKid x b.2).map (b.1, ·)
  | _, .attrPtr _ _ F, x, b => (F.setKid x b.2).map (b.1, ·)
  | _, .chardata F, x, b => (F.setKid x b.2).map (b.1, ·)
  | _, .elem f F, x, b =>
    if x.isElem f.name then (f.dec x b.1).map (·, b.2) else (F.setKid x b.2).map (b.1, ·)

/-- The field for the character data takes it, at the end of the element. -/
def setText : {β : Type} → XFields β → String → β → β
  | _, .nil, _, b => b
  | _, .skip _ F, s, b => (b.1, F.setText s b.2)
  | _, .attr _ _ _ F, s, b => (b.1, F.setText s b.2)
  | _, .attrPtr _ _ F, s, b => (b.1, F.setText s b.2)
  | _, .chardata _, s, b => (s, b.2)
  | _, .elem _ F, s, b => (b.1, F.setText s b.2)

/-- The attributes, one after the other. -/
def decAttrs {β : Type} (F : XFields β) : List (String × String) → β → Option β
  | [], b => some b
  | kv :: kvs, b =>
    match F.setAttr kv b with
    | none => none
    | some b' => F.decAttrs kvs b'

/-- `xml.Unmarshal` of an element into a struct: the attributes, then the children, then the character
data. -/
def dec {β : Type} (F : XFields β) (x : Xml) (b : β) : Option β :=
  match F.decAttrs x.attrs b with
  | none => none
  | some b₁ =>
    match XField.decAll F.setKid x.kids b₁ with
    | none => none
    | some b₂ => some (F.setText (textOf x.kids) b₂)

/-- What reading back yields; skipped fields become zero. -/
def norm : {β : Type} → XFields β → β → β
  | _, .nil, _ => ()
  | _, .skip z F, b => (z, F.norm b.2)
  | _, .attr _ oe c F, b => (if oe && c.empty b.1 then c.zero else c.norm b.1, F.norm b.2)
  | _, .attrPtr _ c F, b => (b.1.map c.norm, F.norm b.2)
  | _, .chardata F, b => (sanitize b.1, F.norm b.2)
  | _, .elem f F, b => (f.norm b.1, F.norm b.2)

/-- The values for which that is so. -/
def good : {β : Type} → XFields β → β → Prop
  | _, .nil, _ => True
  | _, .skip _ F, b => F.good b.2
  | _, .attr _ _ c F, b => c.good b.1 ∧ F.good b.2
  | _, .attrPtr _ c F, b => (∀ a ∈ b.1, c.good a) ∧ F.good b.2
  | _, .chardata F, b => F.good b.2
  | _, .elem f F, b => f.good b.1 ∧ F.good b.2

end XFields

/-- A Go struct without XML methods of its own. -/
def XCodec.struct {σ β : Type} (F : XFields β) (toP : σ → β) (ofP : β → σ) : XCodec σ where
  enc n s := (F.encKids (toP s)).map fun ks => some (.elem n (F.encAttrs (toP s)) ks)
  dec x s := (F.dec x (toP s)).map ofP
  zero := ofP F.zero
  empty _ := false
  norm s := ofP (F.norm (toP s))
  good s := F.good (toP s)

end Verif
