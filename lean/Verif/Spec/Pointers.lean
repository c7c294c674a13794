import Verif.Spec.Graph

/-!
# References other than dependencies

What the vulnerabilities, compositions and annotations of a document, or of a BOM, refer to.
-/

namespace Verif

/-- The elements of an array, or the value itself. -/
def Json.parts : Json → List Json
  | .arr js => js
  | j => [j]

/-- The strings that are reached by following these names, through all elements of arrays. -/
def Json.along : List String → Json → List String
  | [], j => j.texts
  | n :: ns, j => (j.named n).flatMap fun a => a.parts.flatMap (Json.along ns)

/-- What the vulnerabilities, compositions and annotations of a document say about components and services: what is
affected, what is complete or incomplete, and what is annotated. -/
def Json.pointers (j : Json) : List String :=
  j.along ["vulnerabilities", "affects", "ref"] ++ j.along ["compositions", "assemblies"] ++
    j.along ["compositions", "dependencies"] ++ j.along ["annotations", "subjects"]

/-- The vulnerabilities that the compositions of a document refer to. -/
def Json.vulnerabilityPointers (j : Json) : List String := j.along ["compositions", "vulnerabilities"]

/-- What `f` finds in the elements that are reached by following these names. -/
def Xml.along (f : Xml → List String) : List String → Xml → List String
  | [], x => f x
  | n :: ns, x => (x.childrenOf n).flatMap (Xml.along f ns)

/-- The text of an element. -/
def Xml.ownText (x : Xml) : List String := [textOf x.kids]

/-- As `Json.pointers`. -/
def Xml.pointers (x : Xml) : List String :=
  x.along Xml.ownText ["vulnerabilities", "vulnerability", "affects", "target", "ref"] ++
    x.along (Xml.valuesOf "ref") ["compositions", "composition", "assemblies", "assembly"] ++
    x.along (Xml.valuesOf "ref") ["compositions", "composition", "dependencies", "dependency"] ++
    x.along (Xml.valuesOf "ref") ["annotations", "annotation", "subjects", "subject"]

/-- As `Json.vulnerabilityPointers`. -/
def Xml.vulnerabilityPointers (x : Xml) : List String :=
  x.along (Xml.valuesOf "ref") ["compositions", "composition", "vulnerabilities", "vulnerability"]

/-- What the vulnerabilities, compositions and annotations of a BOM say about components and services. -/
def BOM.pointers (b : BOM) : List String :=
  (b.vulnerabilities.elems.flatMap fun v => v.affects.elems.map Affects.ref) ++
    (b.compositions.elems.flatMap fun c => c.assemblies.elems.map BOMReference.val) ++
    (b.compositions.elems.flatMap fun c => c.dependencies.elems.map BOMReference.val) ++
    (b.annotations.elems.flatMap fun a => a.subjects.elems.map BOMReference.val)

/-- The vulnerabilities that the compositions of a BOM refer to. -/
def BOM.vulnerabilityPointers (b : BOM) : List String :=
  b.compositions.elems.flatMap fun c => c.vulnerabilities.elems.map BOMReference.val

/-- The identifier of a vulnerability of the BOM. -/
def BOM.IsVulnerability (b : BOM) (r : String) : Prop := r ≠ "" ∧ ∃ v ∈ b.vulnerabilities.elems, v.bomRef = r

/-- Every pointer of the BOM leads to a component or service of the BOM, or a vulnerability. -/
structure BOM.Resolved (b : BOM) : Prop where
  /-- The pointers to components and services. -/
  nodes : ∀ r ∈ b.pointers, b.IsNode r
  /-- The pointers to vulnerabilities. -/
  vulnerabilities : ∀ r ∈ b.vulnerabilityPointers, b.IsVulnerability r

end Verif
