import Verif.Xml.Value

/-!
# What an XML document says

Its words: the values of the attributes, and the character data of the elements.  Independent of the codecs.
-/

namespace Verif

/-- A word of the element `x`: the value of an attribute of it or of an element in it, or all the character data directly
in it, or directly in an element in it. -/
inductive Xml.Says : Xml → String → Prop
  | attr {n k s : String} {as : List (String × String)} {ks : List Xml} : (k, s) ∈ as → Says (.elem n as ks) s
  | text {n : String} {as : List (String × String)} {ks : List Xml} : Says (.elem n as ks) (Xml.textOf ks)
  | kid {n s : String} {as : List (String × String)} {ks : List Xml} {k : Xml} : k ∈ ks → Says k s → Says (.elem n as ks) s

/-- A truth value, or something in which there are only the characters of numbers; or nothing at all. -/
def NoText (t : String) : Prop :=
  t = "true" ∨ t = "false" ∨
    ∀ c ∈ t.toList, ('0' ≤ c ∧ c ≤ '9') ∨ c ∈ ['+', '-', '.', 'e', 'N', 'a', 'I', 'n', 'f']

end Verif
