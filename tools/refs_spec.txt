import Verif.Model.Types
import Verif.Json.Value
import Verif.Xml.Value

/-!
# The identifiers of a document

GENERATED by `tools/gen_refs.py` from the struct declarations of `/repo/cyclonedx.go`; do not edit by hand.

`Json.bomRefs` and `Xml.bomRefs` are the identifiers that a document gives to its parts: the strings of the members, or
attributes, called `bom-ref`, at any depth, in the order of the document.  The XML schemas since version 1.1 require
that none of them occurs twice (`xs:unique name="bom-ref"`).

`T.bomRefs x` are the identifiers in a value: those of the fields with the tag `json:"bom-ref"`, at any depth, in the
order of the fields, unless they are empty.  Where a value holds one of several alternatives, only that one counts.
The two formats differ in one place: XML writes neither the identifiers of the details of a license expression nor the
licensing beside it, and the identifier of the expression only with an expression.  `Wire` says which format is meant.
-/

namespace Verif

mutual
/-- The identifiers in a JSON value. -/
def Json.bomRefs : Json → List String
  | .arr js => Json.listRefs js
  | .obj ms => Json.memberRefs ms
  | _ => []
/-- The identifiers in the elements of an array. -/
def Json.listRefs : List Json → List String
  | [] => []
  | j :: js => j.bomRefs ++ Json.listRefs js
/-- The identifiers in the members of an object. -/
def Json.memberRefs : List (String × Json) → List String
  | [] => []
  | (k, j) :: ms =>
    (if k = "bom-ref" then (match j with | .str s => [s] | _ => []) else []) ++ j.bomRefs ++ Json.memberRefs ms
end

/-- The identifiers among attributes. -/
def Xml.attrRefs (as : List (String × String)) : List String := (as.filter fun a => a.1 = "bom-ref").map Prod.snd

mutual
/-- The identifiers in an element. -/
def Xml.bomRefs : Xml → List String
  | .elem _ as ks => Xml.attrRefs as ++ Xml.kidRefs ks
  | .text _ => []
/-- The identifiers in the content of an element. -/
def Xml.kidRefs : List Xml → List String
  | [] => []
  | k :: ks => k.bomRefs ++ Xml.kidRefs ks
end

/-- An identifier, if it is not empty. -/
def ident (s : String) : List String := if s = "" then [] else [s]

/-- The format of a document. -/
class inductive Wire where
  /-- JSON -/
  | json
  /-- XML -/
  | xml

variable [w : Wire]

/-- Only in JSON. -/
def onlyJSON (ids : List String) : List String := match w with | .json => ids | .xml => []

/-- In JSON, and in XML if the text it belongs to is not empty. -/
def withText (text : String) (ids : List String) : List String :=
  match w with | .json => ids | .xml => if text = "" then [] else ids

