import Verif.Spec.JsonRequired
import Verif.Spec.JsonEnums

/-!
# What a JSON document leaves to a default

The schemas give the status of an affected version a default (`/repo/schema/bom-1.7.schema.json` `affectedStatus`), so
it may be missing.  `Terse s j`: somewhere in `j`, where `s` is declared for it, is an affected version without status;
or a patent or patent family whose `familyId` is the empty string.
-/

namespace Verif

/-- See the header. -/
inductive Terse : Sch → Json → Prop
  | status {ms : List (String × Json)} (h : ∀ m ∈ ms, m.1 ≠ "status") : Terse (.place .affectedVersions) (.obj ms)
  | family {ms : List (String × Json)} (h : ("familyId", Json.str "") ∈ ms) : Terse (.place .patentOrFamily) (.obj ms)
  | elem {s : Sch} {js : List Json} {j : Json} (hj : j ∈ js) (h : Terse s j) : Terse (.list s) (.arr js)
  | member {p : Place} {ms : List (String × Json)} {m : String × Json} {s : Sch} (hm : m ∈ ms)
      (hl : p.members.lookup m.1 = some s) (h : Terse s m.2) : Terse (.place p) (.obj ms)
  | left {s t : Sch} {j : Json} (h : Terse s j) : Terse (.alt s t) j
  | right {s t : Sch} {j : Json} (h : Terse t j) : Terse (.alt s t) j
  | since {u : Int} {s : Sch} {j : Json} (h : Terse s j) : Terse (.since u s) j

/-- What is declared, with all that is required, only enumerated strings, and nothing `Terse`. -/
structure Proper (v : Int) (s : Sch) (j : Json) : Prop where
  declared : Conforms v s j
  required : HasRequired v s j
  listed : HasListed v s j
  stated : ¬ Terse s j

/-- A document with only declared members, kinds of values and enumerated strings, and all required members. -/
def Json.Proper (v : Int) (j : Json) : Prop := Verif.Proper v (.place .bom) j

end Verif
