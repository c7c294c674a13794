import Verif.Spec.JsonSchema
import Verif.Spec.JsonRequired

/-!
# The empty references that no JSON schema allows

The schemas of versions 1.6 and 1.7 declare the algorithms of an IKEv2 transform type as references
(`/repo/schema/bom-1.6.schema.json` `#/definitions/cryptoRefArray`, of `refType`, `minLength` 1); version 1.7 declares
objects besides.  `BlankRef s j`: somewhere in `j`, where such a reference is declared, is the empty string.
`Json.Valid v j` collects what this project knows of the schema of version `v` and the theorems about reading and
writing again need: only declared members and kinds of values, all required members, no empty reference.
-/

namespace Verif

/-- Where a string or, from some version on, something else is declared, there is the empty string. -/
inductive BlankRef : Sch → Json → Prop
  | here {u : Int} {t : Sch} : BlankRef (.alt .str (.since u t)) (.str "")
  | elem {s : Sch} {js : List Json} {j : Json} (hj : j ∈ js) (h : BlankRef s j) : BlankRef (.list s) (.arr js)
  | member {p : Place} {ms : List (String × Json)} {m : String × Json} {s : Sch} (hm : m ∈ ms)
      (hl : p.members.lookup m.1 = some s) (h : BlankRef s m.2) : BlankRef (.place p) (.obj ms)
  | left {s t : Sch} {j : Json} (h : BlankRef s j) : BlankRef (.alt s t) j
  | right {s t : Sch} {j : Json} (h : BlankRef t j) : BlankRef (.alt s t) j
  | since {u : Int} {s : Sch} {j : Json} (h : BlankRef s j) : BlankRef (.since u s) j

/-- What is declared, with all that is required and without empty references. -/
structure Sound (v : Int) (s : Sch) (j : Json) : Prop where
  declared : Conforms v s j
  required : HasRequired v s j
  filled : ¬ BlankRef s j

/-- A document with only declared members and kinds of values, all required members and no empty references. -/
def Json.Valid (v : Int) (j : Json) : Prop := Sound v (.place .bom) j

end Verif
