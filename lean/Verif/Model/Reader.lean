import Verif.Json.Encoder
import Verif.Xml.Encoder
import Verif.Model.Utf8

/-!
# Decoders and the readers they read from: `decode.go`

A reader is the list of what its calls of `Read` return, in order; after the last of them every call returns
`0, io.EOF`.  (So a reader that never ends, of which neither decoder need ever return, is not covered.)  What a call
returns may depend on the size of the buffer it is given; the list says what it does return.
-/

namespace Verif

/-- The error that a call of `Read` returns. -/
inductive ReadErr where
  /-- `io.EOF` -/
  | eof
  /-- any other -/
  | fail (e : String)
  deriving DecidableEq, Repr

/-- What a call of `Read` returns: bytes, and an error or `nil`. -/
structure Piece where
  bytes : List UInt8
  err : Option ReadErr := none
  deriving DecidableEq, Repr

/-- The error returned by a decoder. -/
inductive DecodeErr where
  /-- the error of the reader -/
  | reader (e : String)
  /-- the text is not accepted -/
  | document
  deriving DecidableEq, Repr

/-- `io.ReadAll` of the Go standard library, called at decode.go:43: the bytes, or the error of the reader; and what
is left of the reader. -/
def readAll : List Piece → Except String (List UInt8) × List Piece
  | [] => (.ok [], [])
  | p :: ps =>
    match p.err with
    | none => ((readAll ps).1.map (p.bytes ++ ·), (readAll ps).2)
    | some .eof => (.ok p.bytes, ps)
    | some (.fail e) => (.error e, ps)

section
variable [FloatIO]

/-- `json.Unmarshal` of bytes, called at decode.go:47. -/
def decodeBytes (bs : List UInt8) (old : BOM) : Option BOM := decodeText (Utf8.jsonChars bs) old

/-- decode.go:42-48: what `Decode` returns (the value of the variable after it, or an error), and what is left of
the reader.  If the reader fails the variable is not touched: `return err` precedes `json.Unmarshal`. -/
def decodeJSONFrom (ps : List Piece) (old : BOM) : Except DecodeErr BOM × List Piece :=
  match readAll ps with
  | (.error e, rest) => (.error (.reader e), rest)
  | (.ok bs, rest) =>
    match decodeBytes bs old with
    | none => (.error .document, rest)
    | some b => (.ok b, rest)

end

section
variable [XFloatIO] [XmlIO] [XmlText.XmlLang]

omit [XFloatIO] [XmlIO] in
/-- The tokens that `xml.Decoder` makes of bytes, up to the end of the root element. -/
def XmlText.parseBytes (bs : List UInt8) : Option XmlDoc := XmlText.parse (Utf8.xmlChars bs)

/-- What `Decode` makes of bytes, decode.go:55-69. -/
def decodeXMLBytes (order : List (Int × String)) (bs : List UInt8) (old : BOM) : Option BOM :=
  decodeXMLText order (Utf8.xmlChars bs) old

omit [XFloatIO] [XmlIO] in
/-- How `xml.Decoder` gets the document out of a reader, decode.go:56: `xml.NewDecoder` puts a `bufio.Reader` before
it, which is used for this one call of `Decode`.  It calls `Read` whenever the decoder wants a byte and there is
none left; it gives up after 100 consecutive calls that return neither a byte nor an error
(`maxConsecutiveEmptyReads`), and hands over the bytes that are returned along with an error before the error.
The decoder wants no byte after the end of the root element.  What is then left in the buffer is lost.

`empties` is the number of such calls, `acc` what was read before.  `none` is an error; what is left of the reader
then is not modelled (the decoder may stop reading at the error).

A reader that is an `io.ByteReader` is read without a buffer, byte by byte: it is to be modelled by pieces of one
byte. -/
def readDocument : Nat → List UInt8 → List Piece → Option (XmlDoc × List Piece)
  | _, _, [] => none
  | empties, acc, p :: ps =>
    if p.bytes = [] then
      if p.err.isSome ∨ empties + 1 = 100 then none else readDocument (empties + 1) acc ps
    else
      match XmlText.parseBytes (acc ++ p.bytes) with
      | some d => some (d, ps)
      | none => if p.err.isSome then none else readDocument 0 (acc ++ p.bytes) ps

/-- decode.go:55-69: the value of the variable after `Decode`, and what is left of the reader; `none` is an error.
`order` is as for `decodeXML`. -/
def decodeXMLFrom (order : List (Int × String)) (ps : List Piece) (old : BOM) : Option (BOM × List Piece) :=
  match readDocument 0 [] ps with
  | none => none
  | some (d, rest) =>
    if XmlIO.tooDeep d.root then none else (decodeXML order d old).map (·, rest)


/-- Calls of `Decode` on one decoder, into the variables `olds` one after the other, until one fails. -/
def decodeXMLInto (order : List (Int × String)) : List BOM → List Piece → List BOM
  | [], _ => []
  | old :: olds, ps =>
    match decodeXMLFrom order ps old with
    | none => []
    | some (b, rest) => b :: decodeXMLInto order olds rest

end

end Verif
