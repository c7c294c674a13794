import Verif.Model.Reader
import Verif.Spec.XmlText
import Verif.Spec.JsonText

/-!
# What readers deliver, and where documents end
-/

namespace Verif

/-- The reader hands over the bytes `t`, in whatever pieces, and then ends (`none`) or fails (`some e`).  What it would
return after that is left open. -/
inductive Delivers : List Piece → List UInt8 → Option String → Prop
  | done : Delivers [] [] none
  | eof {t : List UInt8} {ps : List Piece} : Delivers (⟨t, some .eof⟩ :: ps) t none
  | fail {t : List UInt8} {e : String} {ps : List Piece} : Delivers (⟨t, some (.fail e)⟩ :: ps) t (some e)
  | more {t s : List UInt8} {e : Option String} {ps : List Piece} : Delivers ps s e →
      Delivers (⟨t, none⟩ :: ps) (t ++ s) e

/-- A call of `Read` that returns `0, nil`. -/
def Piece.idle : Piece := ⟨[], none⟩

/-- Some hundred consecutive calls of `Read` return `0, nil`. -/
def Stalls (ps : List Piece) : Prop := ∃ a b, ps = a ++ List.replicate 100 Piece.idle ++ b

/-- No call returns an error. -/
def Flawless (ps : List Piece) : Prop := ∀ p ∈ ps, p.err = none

/-- The bytes that the calls return, one after the other. -/
def textOf (ps : List Piece) : List UInt8 := (ps.map Piece.bytes).flatten

namespace XmlGrammar

variable [XmlText.XmlLang]

/-- A document that ends with its root element. -/
inductive Whole : List Char → XmlDoc → Prop
  | empty {p t : List Char} {n : XmlText.QName} {as : List (XmlText.QName × List Char)} {v : List Char} :
      Prolog p → StartTag t n as true → Space n as v →
      Whole (p ++ t) ⟨String.ofList v, .elem (String.ofList n.loc) (locals as) []⟩
  | elem {p t b e : List Char} {n : XmlText.QName} {as : List (XmlText.QName × List Char)} {v : List Char}
      {ks : List Xml} : Prolog p → StartTag t n as false → Content b ks → EndTag e n → Space n as v →
      Whole (p ++ (t ++ (b ++ e))) ⟨String.ofList v, .elem (String.ofList n.loc) (locals as) ks⟩

end XmlGrammar

end Verif
