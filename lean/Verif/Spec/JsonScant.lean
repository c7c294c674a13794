import Verif.Spec.JsonBlank

/-!
# What is required but said with nothing

The JSON schemas require members and (mostly) do not ask for more than that they are strings: `"text": ""` is there.
`Scant s j`: somewhere in `j`, where `s` is declared for it, is the empty string; or a signer of a signature
without public key (which the JSON Signature Format allows), or a certificate extension of both kinds (which the
schema excludes with `oneOf`, `/repo/schema/bom-1.7.schema.json` `certificateExtension`).
-/

namespace Verif

/-- See the header. -/
inductive Scant : Sch → Json → Prop
  | blank : Scant .str (.str "")
  | keyless {ms : List (String × Json)} (h : ∀ m ∈ ms, m.1 ≠ "publicKey") : Scant (.place .signer) (.obj ms)
  | mixed {ms : List (String × Json)} (h : ∃ m ∈ ms, m.1 = "commonExtensionName")
      (h' : ∃ m ∈ ms, m.1 = "customExtensionName") : Scant (.place .certificateExtension) (.obj ms)
  | elem {s : Sch} {js : List Json} {j : Json} (hj : j ∈ js) (h : Scant s j) : Scant (.list s) (.arr js)
  | member {p : Place} {ms : List (String × Json)} {m : String × Json} {s : Sch} (hm : m ∈ ms)
      (hl : p.members.lookup m.1 = some s) (h : Scant s m.2) : Scant (.place p) (.obj ms)
  | left {s t : Sch} {j : Json} (h : Scant s j) : Scant (.alt s t) j
  | right {s t : Sch} {j : Json} (h : Scant t j) : Scant (.alt s t) j
  | since {u : Int} {s : Sch} {j : Json} (h : Scant s j) : Scant (.since u s) j

/-- What is declared, with all that is required, and nothing `Scant`. -/
structure Ample (v : Int) (s : Sch) (j : Json) : Prop where
  declared : Conforms v s j
  required : HasRequired v s j
  ample : ¬ Scant s j

/-- A document with only declared members and kinds of values and all required members, none of them empty. -/
def Json.Ample (v : Int) (j : Json) : Prop := Verif.Ample v (.place .bom) j

end Verif
