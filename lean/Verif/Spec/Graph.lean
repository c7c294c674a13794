import Verif.Spec.BomRefs
import Verif.Spec.Locate

/-!
# The dependency graph of a document, and its lists

What the dependencies of a document refer to, in both formats, and which values of a JSON document are lists; for a BOM,
what its dependencies refer to and which identifiers are those of components and services.
-/

namespace Verif

/-- The values of the members with this name. -/
def Json.named (n : String) : Json → List Json
  | .obj ms => (ms.filter fun m => m.1 = n).map Prod.snd
  | _ => []

/-- The elements of an array. -/
def Json.items : Json → List Json
  | .arr js => js
  | _ => []

/-- The text of a string. -/
def Json.texts : Json → List String
  | .str s => [s]
  | _ => []

/-- What a dependency refers to: what depends, what it depends on, and what it provides. -/
def Json.endpoints (d : Json) : List String :=
  (d.named "ref").flatMap Json.texts ++ (d.named "dependsOn").flatMap (fun a => a.items.flatMap Json.texts) ++
    (d.named "provides").flatMap (fun a => a.items.flatMap Json.texts)

/-- What the dependencies of a document refer to. -/
def Json.dependencyRefs (j : Json) : List String :=
  (j.named "dependencies").flatMap fun a => a.items.flatMap Json.endpoints

/-- Everything the dependencies refer to is in the document. -/
def Json.Closed (j : Json) : Prop := ∀ r ∈ j.dependencyRefs, r ∈ j.bomRefs

/-- The values of the attributes with this name. -/
def Xml.valuesOf (n : String) (x : Xml) : List String := (x.attrs.filter fun a => a.1 = n).map Prod.snd

/-- The child elements with this name. -/
def Xml.childrenOf (n : String) (x : Xml) : List Xml := x.kids.filter (Xml.isElem n)

/-- What a dependency refers to: what depends, what it depends on, and what it provides. -/
def Xml.endpoints (d : Xml) : List String :=
  d.valuesOf "ref" ++ (d.childrenOf "dependency").flatMap (Xml.valuesOf "ref") ++
    (d.childrenOf "provides").flatMap (Xml.valuesOf "ref")

/-- What the dependencies of a document refer to. -/
def Xml.dependencyRefs (root : Xml) : List String :=
  (root.childrenOf "dependencies").flatMap fun ds => (ds.childrenOf "dependency").flatMap Xml.endpoints

/-- Everything the dependencies refer to is in the document. -/
def Xml.Closed (root : Xml) : Prop := ∀ r ∈ root.dependencyRefs, r ∈ root.bomRefs

mutual
/-- The arrays in a JSON value, at any depth, each by its elements. -/
def Json.arrays : Json → List (List Json)
  | .arr js => js :: Json.listArrays js
  | .obj ms => Json.memberArrays ms
  | _ => []
/-- The arrays in the elements of an array. -/
def Json.listArrays : List Json → List (List Json)
  | [] => []
  | j :: js => j.arrays ++ Json.listArrays js
/-- The arrays in the members of an object. -/
def Json.memberArrays : List (String × Json) → List (List Json)
  | [] => []
  | (_, j) :: ms => j.arrays ++ Json.memberArrays ms
end

/-- No array of the document has an element twice, as the schemas require of most with `uniqueItems`. -/
def Json.UniqueItems (j : Json) : Prop := ∀ js ∈ j.arrays, js.Nodup

/-- What a dependency refers to. -/
def Dependency.endpoints (d : Dependency) : List String := d.ref :: (d.dependencies.elems ++ d.provides.elems)

/-- What the dependencies of a BOM refer to. -/
def BOM.dependencyRefs (b : BOM) : List String := b.dependencies.elems.flatMap Dependency.endpoints

/-- The identifier of a component of the BOM, at any depth, or of a service, at any depth.  The components and services
that are tools do not count. -/
def BOM.IsNode (b : BOM) (r : String) : Prop :=
  r ≠ "" ∧ ((∃ p c, Spec.componentAt b p = some c ∧ c.bomRef = r) ∨ ∃ p s, Spec.serviceAt b p = some s ∧ s.bomRef = r)

end Verif
