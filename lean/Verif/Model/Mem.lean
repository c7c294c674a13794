import Verif.Model.Trees

/-!
# Programs over memory

A small language, embedded in Lean, in which `Model/GoConvert` writes down the conversion of `/repo/convert.go` as it
is: as assignments through pointers to the heap of `Model/Heap`.  A program returns `none` if it panics (a nil pointer
is followed, an index is out of range) or runs out of the steps it was given for recursion.
-/

namespace Verif.Heap

/-- A program with a result. -/
def Prog (α : Type) := Heap → Option (α × Heap)

namespace Prog

/-- A program that does nothing. -/
protected def pure {α : Type} (a : α) : Prog α := fun h => some (a, h)

/-- One program after the other. -/
protected def bind {α β : Type} (m : Prog α) (k : α → Prog β) : Prog β := fun h =>
  match m h with
  | none => none
  | some (a, h') => k a h'

instance : Monad Prog where
  pure := Prog.pure
  bind := Prog.bind

/-- A panic. -/
def panic {α : Type} : Prog α := fun _ => none

end Prog

/-- `&l.f` for a pointer `l` to a struct (or an array). -/
def Loc.field (l : Loc) (f : Nat) : Loc := ⟨l.cell, l.path ++ [f]⟩

/-- `*l` -/
def read (l : Loc) : Prog Val := fun h => (load h l).map (·, h)

/-- `*l = v` -/
def write (l : Loc) (v : Val) : Prog Unit := fun h => (store h l v).map ((), ·)

/-- `new(T)`, with a value. -/
def alloc (v : Val) : Prog Loc := fun h => some (⟨h.length, []⟩, h ++ [v])

/-- `[]T{vs...}`: a slice of a new array. -/
def allocSlice (vs : List Val) : Prog Val := fun h => some (.slice h.length vs.length, h ++ [.agg vs])

/-- `if *l != nil { f(*l) }`, for a variable that holds a pointer.  Also a call `f(*l)` of a function that returns
at once if its argument is nil. -/
def whenPtr (l : Loc) (f : Loc → Prog Unit) : Prog Unit := do
  match ← read l with
  | .nilPtr => pure ()
  | .ptr p => f p
  | _ => Prog.panic

/-- The body of a loop for the indices from `i` on, `n` of them. -/
def forIdx (f : Loc → Prog Unit) (arr : Loc) : Nat → Nat → Prog Unit
  | _, 0 => pure ()
  | i, n + 1 => do
    f (arr.field i)
    forIdx f arr (i + 1) n

/-- `for i := range *s { f(&(*s)[i]) }`, for a pointer `s` to a slice. -/
def forElems (s : Loc) (f : Loc → Prog Unit) : Prog Unit := do
  match ← read s with
  | .nilSlice => pure ()
  | .slice a n => forIdx f ⟨a, []⟩ 0 n
  | _ => Prog.panic

/-- `if *l != nil { for i := range **l { f(&(**l)[i]) } }`, for a variable that holds a pointer to a slice. -/
def whenElems (l : Loc) (f : Loc → Prog Unit) : Prog Unit := whenPtr l fun s => forElems s f

/-- `*l = nil` -/
def setNil (l : Loc) : Prog Unit := write l .nilPtr

/-- `*l = s` -/
def setStr (l : Loc) (s : String) : Prog Unit := write l (.scalar (.str s))

/-- `*l = i` -/
def setInt (l : Loc) (i : Int) : Prog Unit := write l (.scalar (.int i))

/-- `*l`, for a variable that holds a string. -/
def readStr (l : Loc) : Prog String := do
  match ← read l with
  | .scalar (.str s) => pure s
  | _ => Prog.panic

/-- `*l == nil`, for a variable that holds a pointer. -/
def readNil (l : Loc) : Prog Bool := do
  match ← read l with
  | .nilPtr => pure true
  | .ptr _ => pure false
  | _ => Prog.panic

/-- A loop that changes the elements of an array and collects copies of some of them in a new slice:
`for i := range *s { f(&(*s)[i]); if test((*s)[i]) { acc = append(acc, (*s)[i]) } }`.  The slice `acc` is a local
variable; nothing else sees its array before it is stored, so that it is not in the heap until then. -/
def collectIdx (f : Loc → Prog Unit) (test : Loc → Prog Bool) (arr : Loc) : Nat → Nat → Prog (List Val)
  | _, 0 => pure []
  | i, n + 1 => do
    f (arr.field i)
    let keep ← test (arr.field i)
    let v ← read (arr.field i)
    let vs ← collectIdx f test arr (i + 1) n
    pure (if keep then v :: vs else vs)

/-- The same, for a pointer `s` to a slice, followed by
`if len(acc) == 0 { *s = nil } else { *s = acc }`. -/
def collect (s : Loc) (f : Loc → Prog Unit) (test : Loc → Prog Bool) : Prog Unit := do
  let acc ← match ← read s with
    | .nilSlice => pure []
    | .slice a n => collectIdx f test ⟨a, []⟩ 0 n
    | _ => Prog.panic
  if acc.isEmpty then
    write s .nilSlice
  else do
    write s (← allocSlice acc)

/-- `if c { m }` -/
def ifThen (c : Prop) [Decidable c] (m : Prog Unit) : Prog Unit := if c then m else pure ()

/-- `f(*l)` where `f` follows the pointer without looking whether it is nil. -/
def deref {α : Type} (l : Loc) (f : Loc → Prog α) : Prog α := do
  match ← read l with
  | .ptr p => f p
  | _ => Prog.panic

/-- `if *l == nil { m }` -/
def ifNil (l : Loc) (m : Prog Unit) : Prog Unit := do
  if ← readNil l then m else pure ()

/-- `if *l != nil { m }` -/
def ifNotNil (l : Loc) (m : Prog Unit) : Prog Unit := do
  if ← readNil l then pure () else m

/-- `if p(*l) { m }`, for a variable that holds a string. -/
def ifStr (l : Loc) (p : String → Bool) (m : Prog Unit) : Prog Unit := do
  if p (← readStr l) then m else pure ()

/-- `v.f`, for a local variable that holds a struct. -/
def part (v : Val) (f : Nat) : Prog Val := fun h => (v.get [f]).map (·, h)

/-- `for i := ... { acc = append(acc, f((*s)[i])) }`: the appended values, for the indices from `i` on. -/
def mapIdx (f : Val → Prog Val) (arr : Loc) : Nat → Nat → Prog (List Val)
  | _, 0 => pure []
  | i, n + 1 => do
    let v ← read (arr.field i)
    let w ← f v
    let ws ← mapIdx f arr (i + 1) n
    pure (w :: ws)

/-- `if *l != nil { for i := range **l { acc = append(acc, f((**l)[i])) }; *l = nil }`: the appended values. -/
def takeElems (l : Loc) (f : Val → Prog Val) : Prog (List Val) := do
  match ← read l with
  | .nilPtr => pure []
  | .ptr s => do
    let ws ← match ← read s with
      | .nilSlice => pure []
      | .slice a n => mapIdx f ⟨a, []⟩ 0 n
      | _ => Prog.panic
    setNil l
    pure ws
  | _ => Prog.panic

/-- `(*s)[:]`: the elements of a slice. -/
def elems (s : Loc) : Prog (List Val) := do
  match ← read s with
  | .nilSlice => pure []
  | .slice a n => do
    match ← read ⟨a, []⟩ with
    | .agg us => pure (us.take n)
    | _ => Prog.panic
  | _ => Prog.panic

/-- `*s = append(*s, vs...)`.  The elements are copied to a new array.  Go does so if the capacity of the old one does
not suffice; otherwise it writes behind the elements of `*s`, into a part of the array that only this slice can see. -/
def appendTo (s : Loc) (vs : List Val) : Prog Unit := do
  let old ← elems s
  write s (← allocSlice (old ++ vs))

end Verif.Heap
