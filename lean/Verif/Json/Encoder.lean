import Verif.Json.EncodeVersion
import Verif.Json.Text

/-!
# The JSON encoder and decoder on texts: `encode.go`, `decode.go`
-/

namespace Verif

variable [FloatIO]

/-- Which values of the document written for a BOM were returned by a `MarshalJSON` method (see `JText.Marked`).
The theorems hold for every choice. -/
class Marking where
  mark : BOM → Json → JText.Marked
  /-- a mark changes nothing else -/
  erase_mark : ∀ b j, (mark b j).erase = j

/-- No value is marked. -/
@[reducible] def Marking.none (h : ∀ j, (JText.plain j).erase = j) : Marking := ⟨fun _ j => JText.plain j, fun _ j => h j⟩

variable [Marking]

/-- encode.go:50-54: the fields of `jsonBOMEncoder` apart from the writer -/
structure JSONEncoder where
  pretty : Bool
  escapeHTML : Bool
  deriving DecidableEq, Repr

/-- encode.go:43-48: `NewBOMEncoder(writer, BOMFileFormatJSON)` -/
def JSONEncoder.new : JSONEncoder := { pretty := false, escapeHTML := true }

/-- encode.go:82-85 -/
def JSONEncoder.setPretty (e : JSONEncoder) (p : Bool) : JSONEncoder := { e with pretty := p }

/-- encode.go:88-91 -/
def JSONEncoder.setEscapeHTML (e : JSONEncoder) (h : Bool) : JSONEncoder := { e with escapeHTML := h }

/-- Why an encoder returned an error. -/
inductive TextError where
  /-- before anything was written -/
  | encode (e : EncodeError)
  /-- the writer returned an error -/
  | writer
  deriving DecidableEq, Repr

/-- What an encoder did: the arguments of its calls of `Write`, in order, and the error it returned. -/
structure Outcome where
  writes : List (List Char)
  error : Option TextError

/-- encode.go:57-69.  `accepts t` is whether the writer accepts `t`.  `json.Encoder.Encode` calls `Write` once,
with the text of the document and a newline, after it has marshalled (and indented) the whole document. -/
def JSONEncoder.encode (e : JSONEncoder) (accepts : List Char → Bool) (b : BOM) : Outcome :=
  match encodeJSON b with
  | .error err => { writes := [], error := some (.encode err) }
  | .ok j =>
    let t := JText.render e.pretty e.escapeHTML 0 (Marking.mark b j) ++ ['\n']
    { writes := [t], error := if accepts t then .none else some .writer }

/-- encode.go:72-79 -/
def JSONEncoder.encodeVersion (e : JSONEncoder) (accepts : List Char → Bool) (b : BOM) (v : Int) : Outcome :=
  e.encode accepts (copyAndConvert v b)

omit [Marking] in
/-- decode.go:42-48: decoding a text into the variable `old`; `none` is an error.  (The reader is assumed to
deliver the text.) -/
def decodeText (t : List Char) (old : BOM) : Option BOM :=
  match JText.parse t with
  | .none => .none
  | some j => decodeJSON j old

end Verif
