import Verif.Xml.Structs
import Verif.Model.Version
import Verif.Model.Convert
import Verif.Json.EncodeVersion

/-!
# XML documents: `encode.go` and `decode.go` on trees of elements
-/

namespace Verif

open Xml (sanitize)

variable [XFloatIO]

/-- encode.go:99-110: the document `xml.Encoder.Encode` writes after the header; `none` is an error.  The header
is written first, so an error leaves the header in the output.  The root element is always called `bom` (the tag
of `XMLName`), and its attribute `xmlns` puts it in the namespace `XMLNS`. -/
def encodeXML (b : BOM) : Option XmlDoc :=
  match X.bom.enc "bom" b with
  | some (some root) => some { space := sanitize b.xmlns, root := root }
  | _ => none

/-- decode.go:61-66: the first entry whose namespace is that of the BOM gives its version.  `order` is the table
`xmlNamespaces` in the order in which Go happens to go through it. -/
def versionOfNamespace (order : List (Int × String)) (b : BOM) : BOM :=
  match order.find? fun e => e.2 = b.xmlns with
  | some e => { b with specVersion := e.1 }
  | none => b

/-- decode.go:55-69: `xml.Decoder.Decode` into the variable `old`, then the version; `none` is an error.
`XMLName` has the tag `xml:"bom"`: the root must have this name, in whatever namespace, and its name is stored.
What follows the root element is not read. -/
def decodeXML (order : List (Int × String)) (doc : XmlDoc) (old : BOM) : Option BOM :=
  if doc.root.isElem "bom" then
    (X.bom.dec doc.root { old with xmlName := ⟨doc.space, "bom"⟩ }).map (versionOfNamespace order)
  else none

/-- encode.go:113-120 -/
def encodeVersionXML (b : BOM) (sv : Int) : Option XmlDoc := encodeXML (copyAndConvert sv b)

end Verif
