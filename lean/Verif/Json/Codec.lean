import Verif.Model.Prelude
import Verif.Model.Decimal
import Verif.Json.Value

/-!
# How `encoding/json` encodes and decodes values of a Go type

`JCodec α` describes one Go type: how `json.Marshal` writes a value of the type and what
`json.Unmarshal` does to a variable of the type that already holds a value.  The combinators below model
the reflection of `encoding/json` (`encode.go`, `decode.go` of the Go standard library): pointers,
slices behind pointers, and structs with their field tags.  `Verif.Json.Structs` builds one codec per
Go type out of them.

The error *values* are not modelled: `none` is "an error is returned".  A failing `Unmarshal` may leave
its destination partly filled; that partly filled value is not modelled.
-/

namespace Verif

/-- The JSON behaviour of one Go type.  `enc`, `dec`, `zero` and `empty` are the model of the code.
`nullish`, `norm` and `good` are not code: they describe (for the proofs) what a value becomes when it is
written and read back, and on which values that description is correct. -/
structure JCodec (α : Type) where
  /-- `json.Marshal`; `none` is an error. -/
  enc : α → Option Json
  /-- `json.Unmarshal` of a value into a variable holding the second argument; `none` is an error. -/
  dec : Json → α → Option α
  /-- Go's zero value of the type. -/
  zero : α
  /-- `encoding/json`'s `isEmptyValue`, which decides whether `omitempty` drops the field. -/
  empty : α → Bool
  /-- The values written as `null`. -/
  nullish : α → Bool := fun _ => false
  /-- What reading back yields. -/
  norm : α → α := id
  /-- The values that can be read back. -/
  good : α → Prop := fun _ => True

/-- `strconv.FormatFloat`/`ParseFloat` as `encoding/json` uses them.  The digits Go chooses are not
modelled, but the literal is one of JSON by type (`NumLit`); everything is proved for any pair of printer and parser for which parsing a printed number
gives the number back (the documented property of Go's shortest formatting).  `fmt32`/`fmt64` are `none`
exactly for infinities and NaN, which `json.Marshal` rejects; `parse32`/`parse64` are `none` out of range. -/
class FloatIO where
  fmt32 : F32 → Option NumLit
  parse32 : NumLit → Option F32
  fmt64 : F64 → Option NumLit
  parse64 : NumLit → Option F64
  parse_fmt32 : ∀ x lit, fmt32 x = some lit → parse32 lit = some x
  parse_fmt64 : ∀ x lit, fmt64 x = some lit → parse64 lit = some x
  fmt32_isSome : ∀ x, (fmt32 x).isSome ↔ x.Finite
  fmt64_isSome : ∀ x, (fmt64 x).isSome ↔ x.Finite

namespace JCodec

/-- Go `string` and the named string types. -/
def string : JCodec String where
  enc s := some (.str s)
  dec j a := match j with
    | .null => some a
    | .str s => some s
    | _ => none
  zero := ""
  empty s := s = ""

/-- Go `bool`. -/
def bool : JCodec Bool where
  enc b := some (.bool b)
  dec j a := match j with
    | .null => some a
    | .bool b => some b
    | _ => none
  zero := false
  empty b := !b

/-- The value of a non-empty string of decimal digits. -/
def parseNat (ds : List Char) : Option Nat :=
  if ds ≠ [] ∧ ds.all isDigitChar then some (ofDigits (ds.map charVal)) else none

/-- Go's `strconv.ParseInt(lit, 10, 64)` on the literal of a JSON number: only literals without fraction
and exponent are accepted, and only values in the range of `int`. -/
def parseInt (lit : List Char) : Option Int :=
  match lit with
  | '-' :: ds => (parseNat ds).bind fun n => if InInt64 (-(n : Int)) then some (-(n : Int)) else none
  | ds => (parseNat ds).bind fun n => if InInt64 n then some (n : Int) else none

/-- Go `int`. -/
def int : JCodec Int where
  enc i := some (.num (.ofInt i))
  dec j a := match j with
    | .null => some a
    | .num lit => parseInt lit.chars
    | _ => none
  zero := 0
  empty i := i = 0
  good i := InInt64 i

/-- Go `float32`.  `-0` counts as empty too, but no plain `float32` field has `omitempty`. -/
def f32 [FloatIO] : JCodec F32 where
  enc x := (FloatIO.fmt32 x).map .num
  dec j a := match j with
    | .null => some a
    | .num lit => FloatIO.parse32 lit
    | _ => none
  zero := ⟨0⟩
  empty x := x.bits = 0 ∨ x.bits = 0x80000000

/-- Go `float64`. -/
def f64 [FloatIO] : JCodec F64 where
  enc x := (FloatIO.fmt64 x).map .num
  dec j a := match j with
    | .null => some a
    | .num lit => FloatIO.parse64 lit
    | _ => none
  zero := ⟨0⟩
  empty x := x.bits = 0 ∨ x.bits = 0x8000000000000000

/-- A pointer `*T`: nil is written as `null`; `null` sets the pointer to nil (a custom `UnmarshalJSON`
of `T` is then not called); another value is decoded into the existing pointee, or into a new zero
value. -/
def option {α : Type} (c : JCodec α) : JCodec (Option α) where
  enc
    | none => some .null
    | some a => c.enc a
  dec j old := match j with
    | .null => some none
    | j => (c.dec j (old.getD c.zero)).map some
  zero := none
  empty o := o.isNone
  nullish
    | none => true
    | some a => c.nullish a
  norm
    | none => none
    | some a => if c.nullish a then none else some (c.norm a)
  good
    | none => True
    | some a => c.good a

/-- The elements of an array, each decoded into the old element at its index if there is one, else into
a zero value.  (Go would also reuse elements between the length and the capacity of the old slice, which
only shows when the same list occurs three times in one object; not modelled.) -/
def decList {α : Type} (c : JCodec α) : List Json → List α → Option (List α)
  | [], _ => some []
  | j :: js, olds =>
    match c.dec j (olds.headD c.zero) with
    | none => none
    | some a => (decList c js olds.tail).map (a :: ·)

/-- The elements of a slice, encoded in order; the first error ends the encoding. -/
def encList {α : Type} (c : JCodec α) : List α → Option (List Json)
  | [] => some []
  | x :: xs =>
    match c.enc x with
    | none => none
    | some j => (encList c xs).map (j :: ·)

/-- A pointer to a slice, `*[]T`: the nil pointer and the pointer to a nil slice are both written as
`null`. -/
def pslice {α : Type} (c : JCodec α) : JCodec (PSlice α) where
  enc
    | .list xs => (encList c xs).map .arr
    | _ => some .null
  dec j old := match j with
    | .null => some .nil
    | .arr js => (decList c js old.elems).map .list
    | _ => none
  zero := .nil
  empty p := p.isNil
  nullish
    | .list _ => false
    | _ => true
  norm
    | .list xs => .list (xs.map c.norm)
    | _ => .nil
  good p := ∀ x ∈ p.elems, c.good x

end JCodec

/-- The values of the members that go to the field called `n`. -/
def selected (n : String) (ms : List (String × Json)) : List Json :=
  (ms.filter fun m => Json.foldKey m.1 = Json.foldKey n).map Prod.snd

/-- The fields of a Go struct as `encoding/json` sees them, in the order of declaration, for a struct
whose fields are collected in the nested product `β`.  `skip` is a field with the tag `json:"-"`; `field`
has a name, the `omitempty` option and the codec of its type. -/
inductive JFields : Type → Type 1
  | nil : JFields Unit
  | skip {α β : Type} (zero : α) (rest : JFields β) : JFields (α × β)
  | field {α β : Type} (name : String) (omitempty : Bool) (c : JCodec α) (rest : JFields β) :
      JFields (α × β)

namespace JFields

/-- The zero value of the struct. -/
def zero : {β : Type} → JFields β → β
  | _, .nil => ()
  | _, .skip z F => (z, F.zero)
  | _, .field _ _ c F => (c.zero, F.zero)

/-- The member names, in order. -/
def names : {β : Type} → JFields β → List String
  | _, .nil => []
  | _, .skip _ F => F.names
  | _, .field n _ _ F => n :: F.names

/-- The members `json.Marshal` writes for a struct: every field in order, except those dropped by
`omitempty`. -/
def enc : {β : Type} → JFields β → β → Option (List (String × Json))
  | _, .nil, _ => some []
  | _, .skip _ F, b => F.enc b.2
  | _, .field n oe c F, b =>
    if oe && c.empty b.1 then F.enc b.2
    else
      match c.enc b.1 with
      | none => none
      | some j => (F.enc b.2).map ((n, j) :: ·)

/-- What one member of the object does to the struct: the field with this name takes the value; if there
is none, nothing happens.  Go looks for a field with exactly this name first and then for the first field
whose name is equal up to case; because no two fields of a struct of this library have names that are
equal up to case (`Verif.Json.Laws`: the side condition of `struct_lawful`), the first field equal up to
case is that field. -/
def set : {β : Type} → JFields β → String → Json → β → Option β
  | _, .nil, _, _, b => some b
  | _, .skip _ F, k, j, b => (F.set k j b.2).map (b.1, ·)
  | _, .field n _ c F, k, j, b =>
    if Json.foldKey k = Json.foldKey n then (c.dec j b.1).map (·, b.2)
    else (F.set k j b.2).map (b.1, ·)

/-- The members of an object, one after the other. -/
def decMembers {β : Type} (F : JFields β) : List (String × Json) → β → Option β
  | [], b => some b
  | m :: ms, b =>
    match F.set m.1 m.2 b with
    | none => none
    | some b' => F.decMembers ms b'

/-- Field by field `JCodec.norm`; skipped fields become zero. -/
def norm : {β : Type} → JFields β → β → β
  | _, .nil, _ => ()
  | _, .skip z F, b => (z, F.norm b.2)
  | _, .field _ _ c F, b => (c.norm b.1, F.norm b.2)

/-- Field by field `JCodec.good`. -/
def good : {β : Type} → JFields β → β → Prop
  | _, .nil, _ => True
  | _, .skip _ F, b => F.good b.2
  | _, .field _ _ c F, b => c.good b.1 ∧ F.good b.2

end JFields

namespace JCodec

/-- A Go struct without custom JSON methods.  `toP` and `ofP` collect the fields in a nested product and
put them back.  `null` leaves the struct alone. -/
def struct {σ β : Type} (F : JFields β) (toP : σ → β) (ofP : β → σ) : JCodec σ where
  enc s := (F.enc (toP s)).map .obj
  dec j s := match j with
    | .null => some s
    | .obj ms => (F.decMembers ms (toP s)).map ofP
    | _ => none
  zero := ofP F.zero
  empty _ := false
  norm s := ofP (F.norm (toP s))
  good s := F.good (toP s)

end JCodec
end Verif
