import Verif.Xml.Codec

/-!
# Which attribute, element or text of an XML element belongs to which field

`Element c attrs elems txt`: the values of a type are written as an element with some of the attributes `attrs`, some of
the elements `elems` and text; when reading, only these have an effect, each independently of the others, and the text has
the effect `txt` (none, for most types).  `AttrField`, `AttrPtrField`, `TextField` and `ElemField` say which field, given by
its getter and setter, each of them is.
-/

namespace Verif

open Xml (textOf sanitize)

/-- Whether this is an element, of whatever name. -/
def Xml.isElement : Xml → Bool
  | .elem _ _ _ => true
  | .text _ => false

/-- The elements of this name. -/
def elemsCalled (name : String) (ks : List Xml) : List Xml := ks.filter (Xml.isElem name)

/-- The attributes of this name. -/
def attrsCalled (name : String) (as : List (String × String)) : List (String × String) := as.filter fun a => a.1 = name

/-- See the header. -/
structure Element {σ : Type} (c : XCodec σ) (attrs elems : List String) (txt : σ → String → σ) : Prop where
  /-- Every value is written as an element under the name that is asked for, with these attributes and elements only. -/
  written : ∀ tag x o, c.enc tag x = some o → ∃ as ks, o = some (.elem tag as ks) ∧ (∀ a ∈ as, a.1 ∈ attrs) ∧
    ∀ k ∈ ks, (∃ n ∈ elems, k.isElem n = true) ∨ ∃ s, k = .text s
  /-- Attributes and elements are read one after the other, and the name of the element does not matter. -/
  empty : ∀ t x, c.dec (.elem t [] []) x = some (txt x "")
  attr : ∀ t t' a as ks x, c.dec (.elem t (a :: as) ks) x = (c.dec (.elem t' [a] []) x).bind (c.dec (.elem t as ks))
  elem : ∀ t t' n as ks ys x, c.dec (.elem t [] (.elem n as ks :: ys)) x =
    (c.dec (.elem t' [] [.elem n as ks]) x).bind (c.dec (.elem t [] ys))
  /-- Text is read at the end. -/
  text : ∀ t as ks x, c.dec (.elem t as ks) x = (c.dec (.elem t as (ks.filter Xml.isElement)) x).map (txt · (textOf ks))
  /-- Others are ignored. -/
  otherAttr : ∀ t a x, a.1 ∉ attrs → c.dec (.elem t [a] []) x = some (txt x "")
  otherElem : ∀ t n as ks x, n ∉ elems → c.dec (.elem t [] [.elem n as ks]) x = some (txt x "")

/-- A field that is an attribute, written `always` or only if it is not empty. -/
structure AttrField {σ α : Type} (c : XCodec σ) (txt : σ → String → σ) (name : String) (always : Bool) (d : XText α)
    (get : σ → α) (put : σ → α → σ) : Prop where
  written : ∀ tag x as ks, c.enc tag x = some (some (.elem tag as ks)) →
    attrsCalled name as = if always = false ∧ d.empty (get x) = true then [] else [(name, d.enc (get x))]
  read : ∀ t s x, c.dec (.elem t [(name, s)] []) x = (d.dec s).map fun v => txt (put x v) ""

/-- A field of a pointer type that is an attribute. -/
structure AttrPtrField {σ α : Type} (c : XCodec σ) (txt : σ → String → σ) (name : String) (d : XText α)
    (get : σ → Option α) (put : σ → Option α → σ) : Prop where
  written : ∀ tag x as ks, c.enc tag x = some (some (.elem tag as ks)) →
    attrsCalled name as = (get x).toList.map fun v => (name, d.enc v)
  read : ∀ t s x, c.dec (.elem t [(name, s)] []) x = (d.dec s).map fun v => txt (put x (some v)) ""

/-- A field that is the text of the element (`txt` is then its setter). -/
structure TextField {σ : Type} (c : XCodec σ) (get : σ → String) : Prop where
  written : ∀ tag x as ks, c.enc tag x = some (some (.elem tag as ks)) → textOf ks = sanitize (get x)

/-- A field that is written as elements as `f` says. -/
structure ElemField {σ α : Type} (c : XCodec σ) (txt : σ → String → σ) (f : XField α) (get : σ → α)
    (put : σ → α → σ) : Prop where
  written : ∀ tag x as ks, c.enc tag x = some (some (.elem tag as ks)) → f.enc (get x) = some (elemsCalled f.name ks)
  read : ∀ t as ks x, c.dec (.elem t [] [.elem f.name as ks]) x =
    (f.dec (.elem f.name as ks) (get x)).map fun v => txt (put x v) ""

end Verif
