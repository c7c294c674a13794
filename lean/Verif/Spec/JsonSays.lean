import Verif.Json.Value

/-!
# What a JSON document says, and where

The strings and booleans in a document, each with the names of the members that lead to it.  Arrays do not count: what an
element says, the array says.  Names are taken up to case, as `encoding/json` takes them.
-/

namespace Verif

/-- A string or a boolean. -/
inductive Word
  | str (s : String)
  | bool (b : Bool)

/-- The empty string and `false`: what Go puts where nothing was said. -/
def Word.Blank : Word → Prop
  | .str s => s = ""
  | .bool b => b = false

/-- See the header. -/
inductive Json.Says : Json → List String → Word → Prop
  | str (s : String) : Json.Says (.str s) [] (.str s)
  | bool (b : Bool) : Json.Says (.bool b) [] (.bool b)
  | elem {js : List Json} {j : Json} {p : List String} {w : Word} (hj : j ∈ js) (h : j.Says p w) : Json.Says (.arr js) p w
  | member {ms : List (String × Json)} {m : String × Json} {k : String} {p : List String} {w : Word} (hm : m ∈ ms)
      (hk : Json.foldKey k = Json.foldKey m.1) (h : m.2.Says p w) : Json.Says (.obj ms) (k :: p) w

end Verif
