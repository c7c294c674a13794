import Verif.Spec.XmlSchema
import Verif.Xml.Codec

/-!
# Which XML documents cannot be read

For every place of the schemas: the attributes and elements whose text a Go program takes as a boolean or a number.
A document of the form that a schema declares cannot be read exactly if such a text, at any depth, is not one.
-/

namespace Verif

open Xml (trim textOf)

/-- What a text is taken as. -/
inductive XScalar where
  | bool
  | int
  | float32
  | float64
  deriving DecidableEq

/-- The number that digits denote. -/
def decimalValue (ds : List Char) : Nat := ds.foldl (fun n c => n * 10 + (c.toNat - '0'.toNat)) 0

/-- The characters are the decimal representation of the number: at least one digit, perhaps behind a sign. -/
def IsDecimal (cs : List Char) (i : Int) : Prop :=
  ∃ ds : List Char, ds ≠ [] ∧ (∀ c ∈ ds, '0' ≤ c ∧ c ≤ '9') ∧
    ((cs = ds ∨ cs = '+' :: ds) ∧ i = decimalValue ds ∨ cs = '-' :: ds ∧ i = -(decimalValue ds : Int))

/-- The text, which is not empty, is no value of that type when the white space around it has been taken away: neither
`true` nor `false` in one of the ways to write them, not the decimal representation of a number of 64 bits, not what
`strconv.ParseFloat` reads. -/
def XScalar.Bad [XFloatIO] (k : XScalar) (s : String) : Prop :=
  s ≠ "" ∧
    match k with
    | .bool => trim s ∉ ["1", "t", "T", "TRUE", "true", "True", "0", "f", "F", "FALSE", "false", "False"]
    | .int => ¬ ∃ i : Int, -9223372036854775808 ≤ i ∧ i ≤ 9223372036854775807 ∧ IsDecimal (trim s).toList i
    | .float32 => XFloatIO.parse32 (trim s) = none
    | .float64 => XFloatIO.parse64 (trim s) = none

/-- The attributes that are taken as numbers or booleans. -/
def XPlace.scalarAttrs : XPlace → List (String × XScalar)
  | .bom => [("version", .int)]
  | .swid => [("tagVersion", .int), ("patch", .bool)]
  | _ => []

/-- The elements that are taken as numbers or booleans. -/
def XPlace.scalarElems : XPlace → List (String × XScalar)
  | .identity => [("confidence", .float32)]
  | .component => [("modified", .bool)]
  | .service => [("authenticated", .bool), ("x-trust-boundary", .bool)]
  | .cwes => [("cwe", .int)]
  | .methodsMethod => [("confidence", .float32)]
  | .framesFrame => [("line", .int), ("column", .int)]
  | .rating => [("score", .float64)]
  | .assessor => [("thirdParty", .bool)]
  | .algorithmProperties => [("classicalSecurityLevel", .int), ("nistQuantumSecurityLevel", .int)]
  | .relatedCryptoMaterialProperties => [("size", .int)]
  | .ikev2TransformTypes => [("esn", .bool)]
  | .volume => [("persistent", .bool), ("remote", .bool)]
  | .conformance => [("score", .float64)]
  | .confidence => [("score", .float64)]
  | .encr => [("keyLength", .int)]
  | .ke => [("group", .int)]
  | .co2Measure => [("value", .float32)]
  | _ => []

/-- The elements that a content may have, with their places. -/
def Content.els : Content → List (String × XPlace)
  | .empty => []
  | .el n p => [(n, p)]
  | .seq a b => a.els ++ b.els
  | .choice a b => a.els ++ b.els
  | .opt a => a.els
  | .many a => a.els
  | .some a => a.els
  | .switch _ a b => a.els ++ b.els

/-- Something in the element, which is at this place, is not the number or boolean it is taken as. -/
inductive XRefused [XFloatIO] : XPlace → Xml → Prop
  | attr {p : XPlace} {k : XScalar} {name a s : String} {as : List (String × String)} {ks : List Xml} :
    (a, k) ∈ p.scalarAttrs → (a, s) ∈ as → k.Bad s → XRefused p (.elem name as ks)
  | elem {p : XPlace} {k : XScalar} {name n : String} {as bs : List (String × String)} {ks ls : List Xml} :
    (n, k) ∈ p.scalarElems → .elem n bs ls ∈ ks → k.Bad (textOf ls) → XRefused p (.elem name as ks)
  | inside {p q : XPlace} {name n : String} {as bs : List (String × String)} {ks ls : List Xml} :
    (n, q) ∈ p.content.els → .elem n bs ls ∈ ks → XRefused q (.elem n bs ls) → XRefused p (.elem name as ks)

/-- The document cannot be read. -/
def XmlDoc.Refused [XFloatIO] (doc : XmlDoc) : Prop := XRefused .bom doc.root

end Verif
