import Verif.Json.Structs

/-!
# JSON documents: `encode.go` and `decode.go` on syntax trees

The text of a document is the subject of `Verif.Json.Text`; here a document is its syntax tree.
-/

namespace Verif

variable [FloatIO]

/-- The two ways `jsonBOMEncoder.Encode` can fail. -/
inductive EncodeError where
  /-- encode.go:58-60 -/
  | unsupportedVersion
  /-- An error of `json.Marshal`: one of the `MarshalJSON` methods, or a NaN or infinity. -/
  | marshal
  deriving DecidableEq, Repr

/-- encode.go:57-69 up to the text (`json.Encoder.Encode` marshals the whole value before it writes).
Simplified: Go also refuses a document more than 10000 levels deep when it is indented or when a custom
`MarshalJSON` returns it; such documents cannot be decoded either (`decodeJSON`). -/
def encodeJSON (b : BOM) : Except EncodeError Json :=
  if b.specVersion < SpecVersion1_2 then .error .unsupportedVersion
  else match J.bom.enc b with
    | none => .error .marshal
    | some j => .ok j

/-- The limit of `encoding/json` on the nesting of arrays and objects (`maxNestingDepth`). -/
def maxNestingDepth : Nat := 10000

/-- decode.go:42-48: `json.Unmarshal` into the variable `old`; `none` is an error.  `json.Unmarshal`
checks the syntax, including the nesting depth, of the whole text before it decodes. -/
def decodeJSON (j : Json) (old : BOM) : Option BOM :=
  if j.depth ≤ maxNestingDepth then J.bom.dec j old else none

end Verif
