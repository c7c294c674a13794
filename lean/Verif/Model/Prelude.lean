/-!
# Representation of Go values shared by the whole model
-/

namespace Verif

/-- A Go value of type `*[]T`, the shape of every list-valued field of the library.
`nil` is the nil pointer, `nilSlice` a non-nil pointer to a nil slice, `list xs` a non-nil pointer to a
non-nil slice with the elements `xs`.  (Capacity and aliasing of the backing array are not part of the
value; aliasing is treated separately in `Verif.Model.Heap`.) -/
inductive PSlice (α : Type u) where
  | nil
  | nilSlice
  | list (xs : List α)
  deriving Repr, DecidableEq, Inhabited

namespace PSlice

/-- The elements a Go `for range *p` visits (for the nil pointer: none; Go code guards that case). -/
def elems {α : Type u} : PSlice α → List α
  | .nil => []
  | .nilSlice => []
  | .list xs => xs

/-- Go: `p == nil`. -/
def isNil {α : Type u} : PSlice α → Bool
  | .nil => true
  | _ => false

/-- In-place update of every element: `for i := range *p { (*p)[i] = f((*p)[i]) }` guarded by
`p != nil`. -/
def map {α : Type u} {β : Type v} (f : α → β) : PSlice α → PSlice β
  | .nil => .nil
  | .nilSlice => .nilSlice
  | .list xs => .list (xs.map f)

end PSlice

/-- encoding/xml's `Name`, used by `BOM.XMLName` (cyclonedx.go:107). -/
structure XMLName where
  space : String := ""
  loc : String := ""
  deriving Repr, DecidableEq

/-- A Go `float32`, by its IEEE 754 bit pattern. -/
structure F32 where
  bits : BitVec 32
  deriving Repr, DecidableEq

/-- A Go `float64`, by its IEEE 754 bit pattern. -/
structure F64 where
  bits : BitVec 64
  deriving Repr, DecidableEq

/-- Neither an infinity nor NaN: the exponent is not all ones (IEEE 754). -/
def F32.Finite (x : F32) : Prop := x.bits.toNat / 2 ^ 23 % 256 ≠ 255

/-- Neither an infinity nor NaN: the exponent is not all ones (IEEE 754). -/
def F64.Finite (x : F64) : Prop := x.bits.toNat / 2 ^ 52 % 2048 ≠ 2047

instance (x : F32) : Decidable x.Finite := inferInstanceAs (Decidable (_ ≠ _))
instance (x : F64) : Decidable x.Finite := inferInstanceAs (Decidable (_ ≠ _))

/-- The range of Go's `int` on 64-bit platforms. -/
def InInt64 (i : Int) : Prop := -9223372036854775808 ≤ i ∧ i ≤ 9223372036854775807

instance (i : Int) : Decidable (InInt64 i) := inferInstanceAs (Decidable (_ ∧ _))

deriving instance DecidableEq for Except

end Verif
