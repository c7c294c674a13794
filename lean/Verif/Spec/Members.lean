import Verif.Json.Codec
import Verif.Model.Types

/-!
# Which member of a JSON object belongs to which field

`Object c names`: the values of a type are written as objects with some of the members `names` and nothing else, and only
these are looked at when reading.  `Member c name always d get put`: the member `name` is that of the field with the getter
`get` and the setter `put`, whose values are read and written as `d` says; it is written if the field is not empty, or
`always`.
-/

namespace Verif

/-- The members of this name; as everywhere in `encoding/json`, up to case. -/
def called (name : String) (ms : List (String × Json)) : List (String × Json) :=
  ms.filter fun m => Json.foldKey m.1 = Json.foldKey name

/-- See the header. -/
structure Object {σ : Type} (c : JCodec σ) (names : List String) : Prop where
  /-- Every value is written as an object, with these members only. -/
  written : ∀ x j, c.enc x = some j → ∃ ms, j = .obj ms ∧ ∀ m ∈ ms, m.1 ∈ names
  /-- The members are read one after the other. -/
  empty : ∀ x, c.dec (.obj []) x = some x
  read : ∀ m ms x, c.dec (.obj (m :: ms)) x = (c.dec (.obj [m]) x).bind (c.dec (.obj ms))
  /-- Other members are ignored. -/
  other : ∀ k j x, (∀ n ∈ names, Json.foldKey k ≠ Json.foldKey n) → c.dec (.obj [(k, j)]) x = some x

/-- See the header. -/
structure Member {σ α : Type} (c : JCodec σ) (name : String) (always : Bool) (d : JCodec α) (get : σ → α)
    (put : σ → α → σ) : Prop where
  /-- The field is left out exactly if it is empty and may be left out; otherwise there is exactly one member of this
  name, and its value is that of the field. -/
  written : ∀ x ms, c.enc x = some (.obj ms) →
    if always = false ∧ d.empty (get x) = true then called name ms = []
    else ∃ j, d.enc (get x) = some j ∧ called name ms = [(name, j)]
  /-- The member is read into this field, and changes nothing else. -/
  read : ∀ j x, c.dec (.obj [(name, j)]) x = (d.dec j (get x)).map (put x)

/-- A value with a reference is written as a string, the reference; without one as `s` says.  Strings are read as
references, objects as `s` says. -/
structure OrReference {σ : Type} (c s : JCodec σ) (get : σ → BOMReference) (put : σ → BOMReference → σ) : Prop where
  writtenRef : ∀ x, (get x).val ≠ "" → c.enc x = some (.str (get x).val)
  written : ∀ x, (get x).val = "" → c.enc x = s.enc x
  readRef : ∀ r x, c.dec (.str r) x = some (put x ⟨r⟩)
  read : ∀ ms x, c.dec (.obj ms) x = s.dec (.obj ms) x

end Verif
