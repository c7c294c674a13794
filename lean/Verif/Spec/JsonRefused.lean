import Verif.Spec.JsonSchema
import Verif.Json.Codec

/-!
# What the decoder refuses although the JSON schema declares it

`Refused s j` says that somewhere in `j`, for which the schema declares `s`, there is a value of a declared kind
that the Go type for it cannot hold.  The list is short: integers that are not in the range of `int`, and the
members listed in `Place.odd`.  `Verif.Props.JsonRead` proves that there is nothing else.
-/

namespace Verif

/-- A kind of declared values that the Go types cannot hold. -/
inductive Odd where
  /-- every value: the schema declares a string and the Go type is a struct -/
  | all
  /-- a string: the schema declares a string or an object, and the Go type reads an object only -/
  | string
  /-- a string that is not the number of a version of the specification -/
  | version
  /-- a number that is not in the range of `float32` -/
  | float32
  /-- a number that is not in the range of `float64` -/
  | float64
  deriving DecidableEq, Repr

/-- The members of which some values of a declared kind are refused.
`specVersion`: cyclonedx.go:113, cyclonedx_json.go:103-136; `asserter`: cyclonedx.go:1772-1783, cyclonedx_json.go:320-349;
`classification`: cyclonedx.go:614; numbers: cyclonedx.go:95, 101, 690, 712, 1100, 1132, 1669. -/
def Place.odd : Place → List (String × Odd)
  | .bom => [("specVersion", .version)]
  | .patentAssertion => [("asserter", .string)]
  | .evidenceData => [("classification", .all)]
  | .rating => [("score", .float64)]
  | .conformance => [("score", .float64)]
  | .confidence => [("score", .float64)]
  | .componentIdentityEvidence => [("confidence", .float32)]
  | .componentIdentityEvidenceMethods => [("confidence", .float32)]
  | .energyMeasure => [("value", .float32)]
  | .co2Measure => [("value", .float32)]
  | _ => []

variable [FloatIO]

/-- The value is one of the kind. -/
def Odd.Has : Odd → Json → Prop
  | .all, _ => True
  | .string, j => ∃ t, j = .str t
  | .version, j => ∃ t, j = .str t ∧ t ∉ ["1.0", "1.1", "1.2", "1.3", "1.4", "1.5", "1.6", "1.7"]
  | .float32, j => ∃ l, j = .num l ∧ FloatIO.parse32 l = none
  | .float64, j => ∃ l, j = .num l ∧ FloatIO.parse64 l = none

/-- Somewhere in the value, for which `s` is declared, is one that the Go types cannot hold. -/
inductive Refused : Sch → Json → Prop
  /-- an integer that is not in the range of Go's `int` -/
  | int (i : Int) (h : ¬ InInt64 i) : Refused .int (.num (.ofInt i))
  /-- a member listed in `Place.odd` -/
  | odd {p : Place} {ms : List (String × Json)} {m : String × Json} {o : Odd} (hm : m ∈ ms)
      (h : p.odd.lookup m.1 = some o) (ho : o.Has m.2) : Refused (.place p) (.obj ms)
  /-- inside a member -/
  | member {p : Place} {ms : List (String × Json)} {m : String × Json} {s : Sch} (hm : m ∈ ms)
      (h : p.members.lookup m.1 = some s) (hs : Refused s m.2) : Refused (.place p) (.obj ms)
  /-- inside an element -/
  | elem {s : Sch} {js : List Json} {j : Json} (hj : j ∈ js) (hs : Refused s j) : Refused (.list s) (.arr js)
  | left {s t : Sch} {j : Json} (h : Refused s j) : Refused (.alt s t) j
  | right {s t : Sch} {j : Json} (h : Refused t j) : Refused (.alt s t) j
  | since {n : Int} {s : Sch} {j : Json} (h : Refused s j) : Refused (.since n s) j

end Verif
