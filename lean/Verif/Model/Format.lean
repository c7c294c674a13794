import Verif.Model.Reader

/-!
# Encoders and decoders by format: `encode.go`, `decode.go`, `cyclonedx.go`
-/

namespace Verif

/-- cyclonedx.go:146 -/
def BOMFileFormatXML : BOMFileFormat := 0
/-- cyclonedx.go:147 -/
def BOMFileFormatJSON : BOMFileFormat := 1

/-- encode.go:27-41: the types that implement `BOMEncoder` -/
inductive BOMEncoder where
  | json (e : JSONEncoder)
  | xml (e : XMLEncoder)
  deriving DecidableEq, Repr

/-- encode.go:43-48 -/
def newBOMEncoder (format : BOMFileFormat) : BOMEncoder :=
  if format = BOMFileFormatJSON then .json .new else .xml .new

/-- encode.go:82-85, 123-126 -/
def BOMEncoder.setPretty (p : Bool) : BOMEncoder → BOMEncoder
  | .json e => .json (e.setPretty p)
  | .xml e => .xml (e.setPretty p)

/-- encode.go:88-91, 129-132 -/
def BOMEncoder.setEscapeHTML (h : Bool) : BOMEncoder → BOMEncoder
  | .json e => .json (e.setEscapeHTML h)
  | .xml e => .xml (e.setEscapeHTML h)

/-- decode.go:26-28: the types that implement `BOMDecoder` -/
inductive BOMDecoder where
  | json
  | xml
  deriving DecidableEq, Repr

/-- decode.go:30-35 -/
def newBOMDecoder (format : BOMFileFormat) : BOMDecoder :=
  if format = BOMFileFormatJSON then .json else .xml

section
variable [FloatIO] [Marking] [XFloatIO] [XmlIO]

/-- encode.go:57-69, 99-110: what `Encode` writes to a writer that accepts everything, if it returns no error. -/
def BOMEncoder.encode (b : BOM) : BOMEncoder → Option (List UInt8)
  | .json e =>
    let r := e.encode (fun _ => true) b
    if r.error.isSome then none else some (Utf8.encode r.writes.flatten)
  | .xml e =>
    let r := e.encode (fun _ _ => true) b
    if r.failed then none else some (Utf8.encode r.writes.flatten)

/-- encode.go:72-79, 113-120 -/
def BOMEncoder.encodeVersion (b : BOM) (v : Int) (e : BOMEncoder) : Option (List UInt8) := e.encode (copyAndConvert v b)

end

section
variable [FloatIO] [XFloatIO] [XmlIO] [XmlText.XmlLang]

/-- decode.go:42-48, 55-69: the value of the variable after `Decode`; `none` is an error. -/
def BOMDecoder.decode (order : List (Int × String)) (ps : List Piece) (old : BOM) : BOMDecoder → Option BOM
  | .json => (decodeJSONFrom ps old).1.toOption
  | .xml => (decodeXMLFrom order ps old).map Prod.fst

end

end Verif
