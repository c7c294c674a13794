import Verif.Json.Document
import Verif.Model.Gob
import Verif.Model.Convert

/-!
# `EncodeVersion` for JSON: convert.go:22-33, encode.go:72-79
-/

namespace Verif

variable [FloatIO]

/-- convert.go:23-32: deep copy, then conversion of the copy.  (That the copy shares no memory with the
original is the subject of `Verif.Model.Heap`.) -/
def copyAndConvert (sv : Int) (b : BOM) : BOM := convert sv b.copy

/-- encode.go:72-79 -/
def encodeVersionJSON (b : BOM) (sv : Int) : Except EncodeError Json := encodeJSON (copyAndConvert sv b)

end Verif
