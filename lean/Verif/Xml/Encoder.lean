import Verif.Xml.Document
import Verif.Xml.Text

/-!
# The XML encoder and decoder on texts: `encode.go`, `decode.go`
-/

namespace Verif

open XmlText (XmlLang)

/-- What the theorems leave open about how `encoding/xml` writes and reads.

`xml.Encoder` writes through a buffer, so the text of a document reaches the writer in pieces; where they begin and
end depends on the size of the buffer and on the methods `MarshalXML` of this library (`EncodeElement` empties the
buffer).  If marshalling fails, some of the text may have been written before that.

`xml.Decoder` refuses to unmarshal elements below 10000 others; the methods `UnmarshalXML` of this library start the
count anew. -/
class XmlIO where
  /-- the pieces in which a text is written -/
  pieces : List Char → List (List Char)
  flatten_pieces : ∀ t, (pieces t).flatten = t
  /-- what is written before marshalling fails -/
  leftover : Bool → BOM → List (List Char)
  /-- whether elements nest too deep to be unmarshalled -/
  tooDeep : Xml → Bool
  depth_of_tooDeep : ∀ x, tooDeep x = true → 10000 < x.depth

/-- encode.go:93-96: the field of `xmlBOMEncoder` apart from the writer -/
structure XMLEncoder where
  pretty : Bool
  deriving DecidableEq, Repr

/-- encode.go:43-48: `NewBOMEncoder(writer, BOMFileFormatXML)` -/
def XMLEncoder.new : XMLEncoder := { pretty := false }

/-- encode.go:123-126 -/
def XMLEncoder.setPretty (e : XMLEncoder) (p : Bool) : XMLEncoder := { e with pretty := p }

/-- encode.go:129-132 -/
def XMLEncoder.setEscapeHTML (e : XMLEncoder) (_ : Bool) : XMLEncoder := e

/-- What an encoder did: the arguments of its calls of `Write`, in order, and whether it returned an error. -/
structure XMLOutcome where
  writes : List (List Char)
  failed : Bool

/-- Write pieces until one is refused (`bufio.Writer` calls `Write` no more after an error, and reports the error).
`accepts old t` is whether the writer accepts `t` after it was called with `old`. -/
def sendPieces (accepts : List (List Char) → List Char → Bool) : List (List Char) → List (List Char) → XMLOutcome
  | _, [] => { writes := [], failed := false }
  | old, t :: ts =>
    if accepts old t then
      let r := sendPieces accepts (old ++ [t]) ts
      { r with writes := t :: r.writes }
    else { writes := [t], failed := true }

variable [XFloatIO] [XmlIO]

/-- encode.go:99-110: the header is written in a call of its own, before anything is marshalled. -/
def XMLEncoder.encode (e : XMLEncoder) (accepts : List (List Char) → List Char → Bool) (b : BOM) : XMLOutcome :=
  if accepts [] XmlText.header then
    match encodeXML b with
    | none =>
      let r := sendPieces accepts [XmlText.header] (XmlIO.leftover e.pretty b)
      { writes := XmlText.header :: r.writes, failed := true }
    | some doc =>
      let r := sendPieces accepts [XmlText.header] (XmlIO.pieces (XmlText.print e.pretty doc.root {}).1)
      { writes := XmlText.header :: r.writes, failed := r.failed }
  else { writes := [XmlText.header], failed := true }

/-- encode.go:113-120 -/
def XMLEncoder.encodeVersion (e : XMLEncoder) (accepts : List (List Char) → List Char → Bool) (b : BOM) (v : Int) :
    XMLOutcome := e.encode accepts (copyAndConvert v b)

/-- decode.go:55-69: decoding a text into the variable `old`; `none` is an error.  (The reader is assumed to deliver
the text.)  `order` is as for `decodeXML`. -/
def decodeXMLText [XmlLang] (order : List (Int × String)) (t : List Char) (old : BOM) : Option BOM :=
  match XmlText.parse t with
  | none => none
  | some doc => if XmlIO.tooDeep doc.root then none else decodeXML order doc old

end Verif
