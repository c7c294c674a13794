import Verif.Spec.JsonExclusive

/-!
# Documents without repeated members

`Repeats j`: some object in `j`, at any depth, has two members of the same name.
-/

namespace Verif

/-- See the header. -/
inductive Repeats : Json → Prop
  | here {ms : List (String × Json)} (h : ¬ (ms.map (·.1)).Nodup) : Repeats (.obj ms)
  | elem {js : List Json} {j : Json} (hj : j ∈ js) (h : Repeats j) : Repeats (.arr js)
  | member {ms : List (String × Json)} {m : String × Json} (hm : m ∈ ms) (h : Repeats m.2) : Repeats (.obj ms)

/-- What is declared, one of the alternatives everywhere, and no member twice. -/
structure Sole (v : Int) (s : Sch) (j : Json) : Prop where
  declared : Conforms v s j
  exclusive : HasExclusive v s j
  once : ¬ Repeats j

/-- A document with only declared members and kinds of values, with one of the alternatives of the schema of version `v`
everywhere, and no member twice. -/
def Json.Sole (v : Int) (j : Json) : Prop := Verif.Sole v (.place .bom) j

end Verif
