import Verif.Model.Types
import Verif.Model.Decimal

/-!
# Specification versions and media types

Models the constants and methods of `SpecVersion` and `MediaType`: cyclonedx.go:1024-1041 and
1403-1414, cyclonedx_string.go, the version parsers of cyclonedx_json.go:103-136 and
cyclonedx_xml.go:385-418, and the tables cyclonedx_json.go:452-461 and cyclonedx_xml.go:1260-1269.
-/

namespace Verif

/-- cyclonedx.go:1406 -/
def SpecVersion1_0 : Int := 1
/-- cyclonedx.go:1407 -/
def SpecVersion1_1 : Int := 2
/-- cyclonedx.go:1408 -/
def SpecVersion1_2 : Int := 3
/-- cyclonedx.go:1409 -/
def SpecVersion1_3 : Int := 4
/-- cyclonedx.go:1410 -/
def SpecVersion1_4 : Int := 5
/-- cyclonedx.go:1411 -/
def SpecVersion1_5 : Int := 6
/-- cyclonedx.go:1412 -/
def SpecVersion1_6 : Int := 7
/-- cyclonedx.go:1413 -/
def SpecVersion1_7 : Int := 8

/-- cyclonedx.go:1029 -/
def MediaTypeJSON : Int := 1
/-- cyclonedx.go:1030 -/
def MediaTypeXML : Int := 2
/-- cyclonedx.go:1031 -/
def MediaTypeProtobuf : Int := 3

/-- The Go slice expression `s[i:j]` on an ASCII string; `none` is the run-time panic. -/
def goSubstring (s : List Char) (i j : Nat) : Option (List Char) :=
  if i ≤ j ∧ j ≤ s.length then some ((s.drop i).take (j - i)) else none

/-- The code `stringer` generates (cyclonedx_string.go:20-26 and 45-51): `none` is a run-time panic
(index out of range). -/
def stringer (typeName name : List Char) (index : List Nat) (i : Int) : Option (List Char) :=
  let idx := i - 1
  if i < 1 ∨ idx ≥ (index.length : Int) - 1 then
    some (typeName ++ '(' :: intChars i ++ [')'])
  else
    match index[idx.toNat]?, index[idx.toNat + 1]? with
    | some a, some b => goSubstring name a b
    | _, _ => none

/-- cyclonedx_string.go:41 -/
def specVersionNames : List Char := "1.01.11.21.31.41.51.61.7".toList
/-- cyclonedx_string.go:43 -/
def specVersionIndex : List Nat := [0, 3, 6, 9, 12, 15, 18, 21, 24]
/-- cyclonedx_string.go:16 -/
def mediaTypeNames : List Char :=
  ("application/vnd.cyclonedx+json" ++ "application/vnd.cyclonedx+xml" ++
    "application/x.vnd.cyclonedx+protobuf").toList
/-- cyclonedx_string.go:18 -/
def mediaTypeIndex : List Nat := [0, 30, 59, 95]

/-- cyclonedx_string.go:45-51; `none` would be a panic. -/
def SpecVersion.string? (v : Int) : Option (List Char) :=
  stringer "SpecVersion".toList specVersionNames specVersionIndex v

/-- cyclonedx_string.go:20-26; `none` would be a panic. -/
def MediaType.string? (t : Int) : Option (List Char) :=
  stringer "MediaType".toList mediaTypeNames mediaTypeIndex t

/-- `SpecVersion.String()` as a total function (`SpecVersion.string?` is never `none`, see
`Verif.Props.specVersion_string_total`). -/
def SpecVersion.str (v : Int) : String := String.ofList ((SpecVersion.string? v).getD [])

/-- `MediaType.String()` as a total function. -/
def MediaType.str (t : Int) : String := String.ofList ((MediaType.string? t).getD [])

/-- cyclonedx.go:1034-1040; `none` is the error. -/
def MediaType.withVersion (mt : Int) (v : Int) : Option String :=
  if mt = MediaTypeJSON ∧ v < SpecVersion1_2 then none
  else some (MediaType.str mt ++ "; version=" ++ SpecVersion.str v)

/-- The `switch` shared by cyclonedx_json.go:114-133 and cyclonedx_xml.go:396-415; `none` is
`ErrInvalidSpecVersion`. -/
def specVersionOfString (s : String) : Option Int :=
  if s = SpecVersion.str SpecVersion1_0 then some SpecVersion1_0
  else if s = SpecVersion.str SpecVersion1_1 then some SpecVersion1_1
  else if s = SpecVersion.str SpecVersion1_2 then some SpecVersion1_2
  else if s = SpecVersion.str SpecVersion1_3 then some SpecVersion1_3
  else if s = SpecVersion.str SpecVersion1_4 then some SpecVersion1_4
  else if s = SpecVersion.str SpecVersion1_5 then some SpecVersion1_5
  else if s = SpecVersion.str SpecVersion1_6 then some SpecVersion1_6
  else if s = SpecVersion.str SpecVersion1_7 then some SpecVersion1_7
  else none

/-- cyclonedx_json.go:452-461; indexing a Go map with a missing key gives the zero value `""`. -/
def jsonSchemas : List (Int × String) :=
  [(SpecVersion1_0, ""),
   (SpecVersion1_1, ""),
   (SpecVersion1_2, "http://cyclonedx.org/schema/bom-1.2.schema.json"),
   (SpecVersion1_3, "http://cyclonedx.org/schema/bom-1.3.schema.json"),
   (SpecVersion1_4, "http://cyclonedx.org/schema/bom-1.4.schema.json"),
   (SpecVersion1_5, "http://cyclonedx.org/schema/bom-1.5.schema.json"),
   (SpecVersion1_6, "http://cyclonedx.org/schema/bom-1.6.schema.json"),
   (SpecVersion1_7, "http://cyclonedx.org/schema/bom-1.7.schema.json")]

/-- cyclonedx_xml.go:1260-1269 -/
def xmlNamespaces : List (Int × String) :=
  [(SpecVersion1_0, "http://cyclonedx.org/schema/bom/1.0"),
   (SpecVersion1_1, "http://cyclonedx.org/schema/bom/1.1"),
   (SpecVersion1_2, "http://cyclonedx.org/schema/bom/1.2"),
   (SpecVersion1_3, "http://cyclonedx.org/schema/bom/1.3"),
   (SpecVersion1_4, "http://cyclonedx.org/schema/bom/1.4"),
   (SpecVersion1_5, "http://cyclonedx.org/schema/bom/1.5"),
   (SpecVersion1_6, "http://cyclonedx.org/schema/bom/1.6"),
   (SpecVersion1_7, "http://cyclonedx.org/schema/bom/1.7")]

/-- Go's `m[k]` on a `map[SpecVersion]string` (zero value for a missing key). -/
def mapGet (m : List (Int × String)) (k : Int) : String := (m.lookup k).getD ""

end Verif
