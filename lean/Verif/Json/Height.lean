import Verif.Model.Types
import Verif.Json.Codec

/-!
# How deep components and services nest, and codecs of recursive types
-/

namespace Verif

mutual
/-- One more than the height of the deepest component nested in this one, in its component list or in its
pedigree (cyclonedx.go:239-276, 1252-1259). -/
def Component.height : Component → Nat
  | .mk _ _ _ _ _ _ _ _ _ _ _ _ _ _ _ _ _ _ _ _ _ _ pedigree _ _ components _ _ _ _ _ _ _ _ _ _ =>
    max (heightComponents components) (heightPedigreeOpt pedigree) + 1
/-- The height of a list of components. -/
def heightComponents : PSlice Component → Nat
  | .nil => 0
  | .nilSlice => 0
  | .list xs => heightComponentList xs
/-- The height of a list of components. -/
def heightComponentList : List Component → Nat
  | [] => 0
  | c :: cs => max c.height (heightComponentList cs)
/-- The height of an optional pedigree. -/
def heightPedigreeOpt : Option (Pedigree Component) → Nat
  | none => 0
  | some p => heightPedigree p
/-- The height of a pedigree. -/
def heightPedigree : Pedigree Component → Nat
  | .mk ancestors descendants variants _ _ _ =>
    max (heightComponents ancestors) (max (heightComponents descendants) (heightComponents variants))
end

mutual
/-- One more than the height of the deepest service nested in this one (cyclonedx.go:1362-1382). -/
def Service.height : Service → Nat
  | .mk _ _ _ _ _ _ _ _ _ _ _ _ _ services _ _ _ _ _ =>
    heightServices services + 1
/-- The height of a list of services. -/
def heightServices : PSlice Service → Nat
  | .nil => 0
  | .nilSlice => 0
  | .list xs => heightServiceList xs
/-- The height of a list of services. -/
def heightServiceList : List Service → Nat
  | [] => 0
  | s :: ss => max s.height (heightServiceList ss)
end

/-- A codec that fails on everything; where the approximations of a recursive codec start. -/
def J.bottom {α : Type} (zero : α) : JCodec α where
  enc _ := none
  dec _ _ := none
  zero := zero
  empty _ := false

/-- The codec of a recursive type out of its approximations `N 0`, `N 1`, …, where `N n` handles values
nested less than `n` deep.  A value is encoded by the approximation for its own height, a document decoded
by the one for its depth. -/
def J.knot {α : Type} (zero : α) (N : Nat → JCodec α) (height : α → Nat) : JCodec α where
  enc a := (N (height a)).enc a
  dec j a := (N (j.depth + 1)).dec j a
  zero := zero
  empty _ := false
  norm a := (N (height a)).norm a
  good a := (N (height a)).good a

end Verif
