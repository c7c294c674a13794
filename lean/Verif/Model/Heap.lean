import Verif.Model.Gob

/-!
# Memory: variables, pointers, sharing

The rest of the model treats Go values as trees.  This file models memory, so that aliasing can be spoken
about: a heap of variables, values holding pointers into it, a small machine that runs programs over it, and
the deep copy of `/repo/copy.go` as operations on the heap.

* A variable (a cell of the heap) is named by its number.  A pointer is a variable and a path into it (Go can
  point to a field of a struct and to an element of an array).
* A slice is a pointer to an array variable together with a length.  All slices of this library start at the
  beginning of their array; slices that do not are not modelled.
* Programs can only get at memory as Go programs can: through pointers held in their local variables, by
  following pointers stored in variables they can reach, and by creating new variables.  There is no way to make
  a pointer out of a number.  Integers, strings and so on are computed by arbitrary functions.
* Goroutines, garbage collection and unsafe pointers are not modelled.
-/

namespace Verif.Heap

/-- A Go value without pointers of the basic types that occur in the library. -/
inductive Scalar where
  | str (s : String)
  | int (i : Int)
  | bool (b : Bool)
  | f32 (x : F32)
  | f64 (x : F64)
  deriving DecidableEq

/-- A pointer: a variable and a path of field or element numbers into it. -/
structure Loc where
  cell : Nat
  path : List Nat := []
  deriving DecidableEq

/-- What a variable can hold.  `agg` is a struct or an array. -/
inductive Val where
  | scalar (s : Scalar)
  | nilPtr
  | ptr (l : Loc)
  | nilSlice
  | slice (cell len : Nat)
  | agg (vs : List Val)

instance : Inhabited Val := ⟨.nilPtr⟩

/-- The variables, numbered by their position. -/
abbrev Heap := List Val

/-- The part of a value at a path. -/
def Val.get : Val → List Nat → Option Val
  | v, [] => some v
  | .agg vs, i :: p => match vs[i]? with
    | some v => v.get p
    | none => none
  | _, _ :: _ => none

/-- The value with the part at a path replaced. -/
def Val.set : Val → List Nat → Val → Option Val
  | _, [], w => some w
  | .agg vs, i :: p, w => match vs[i]? with
    | some v => (v.set p w).map fun v' => .agg (vs.set i v')
    | none => none
  | _, _ :: _, _ => none

/-- Reading through a pointer. -/
def load (h : Heap) (l : Loc) : Option Val := h[l.cell]?.bind fun v => v.get l.path

/-- Writing through a pointer. -/
def store (h : Heap) (l : Loc) (w : Val) : Option Heap :=
  match h[l.cell]? with
  | some v => (v.set l.path w).map fun v' => h.set l.cell v'
  | none => none

/-! ## Programs -/

/-- Instructions.  `x`, `y` are numbers of local variables. -/
inductive Cmd where
  /-- `x := constant` -/
  | const (x : Nat) (s : Scalar)
  /-- `x := nil` (pointer) -/
  | nilPtr (x : Nat)
  /-- `x := nil` (slice) -/
  | nilSlice (x : Nat)
  /-- `x := y` -/
  | move (x y : Nat)
  /-- a computation with scalars, whose result is a scalar -/
  | op (x : Nat) (f : List Scalar → Scalar) (ys : List Nat)
  /-- `x := y == nil` -/
  | isNil (x y : Nat)
  /-- `x := len(y)` -/
  | len (x y : Nat)
  /-- `x := T{ys...}` (a struct or array) -/
  | lit (x : Nat) (ys : List Nat)
  /-- `x := y.f` (field or element of a struct or array held in a local variable) -/
  | part (x y f : Nat)
  /-- `x := &y.f` -/
  | field (x y f : Nat)
  /-- `x := &y[i]` for a slice `y` (up to its capacity) -/
  | elem (x y i : Nat)
  /-- `x := *y` -/
  | load (x y : Nat)
  /-- `*x = y` -/
  | store (x y : Nat)
  /-- `x := new(T); *x = y` -/
  | new (x y : Nat)
  /-- `x := []T{...}` with the elements of the array `y` in a new array -/
  | make (x y : Nat)
  /-- `x := y[:n]` (up to the capacity) -/
  | reslice (x y n : Nat)
  /-- `if x { c } else { d }` -/
  | ite (x : Nat) (c d : List Cmd)
  /-- `for x { c }` -/
  | loop (x : Nat) (c : List Cmd)
  /-- `x := f(ys...)`: the arguments are the local variables 0, 1, ... of the procedure, the result is its local
  variable 0 -/
  | call (x f : Nat) (ys : List Nat)

/-- The local variables of an activation. -/
abbrev Locals := Nat → Val

/-- Assignment to a local variable. -/
def Locals.put (σ : Locals) (x : Nat) (v : Val) : Locals := fun y => if y = x then v else σ y

/-- An activation of a procedure: what is left to do, its local variables, and where its caller wants the
result. -/
structure Act where
  todo : List Cmd
  loc : Locals
  ret : Nat

/-- The state of the machine. -/
structure State where
  acts : List Act
  heap : Heap

/-- The scalars held in local variables. -/
def scalars (σ : Locals) : List Nat → Option (List Scalar)
  | [] => some []
  | y :: ys => match σ y with
    | .scalar s => (scalars σ ys).map (s :: ·)
    | _ => none

/-- The local variables with an assignment, and the heap, after an instruction that is not a jump or a call;
`none` is a panic. -/
def prim (σ : Locals) (h : Heap) : Cmd → Option (Locals × Heap)
  | .const x s => some (σ.put x (.scalar s), h)
  | .nilPtr x => some (σ.put x .nilPtr, h)
  | .nilSlice x => some (σ.put x .nilSlice, h)
  | .move x y => some (σ.put x (σ y), h)
  | .op x f ys => (scalars σ ys).map fun ss => (σ.put x (.scalar (f ss)), h)
  | .isNil x y =>
    match σ y with
    | .nilPtr | .nilSlice => some (σ.put x (.scalar (.bool true)), h)
    | _ => some (σ.put x (.scalar (.bool false)), h)
  | .len x y =>
    match σ y with
    | .nilSlice => some (σ.put x (.scalar (.int 0)), h)
    | .slice _ n => some (σ.put x (.scalar (.int n)), h)
    | _ => none
  | .lit x ys => some (σ.put x (.agg (ys.map σ)), h)
  | .part x y f => ((σ y).get [f]).map fun v => (σ.put x v, h)
  | .field x y f =>
    match σ y with
    | .ptr l => some (σ.put x (.ptr ⟨l.cell, l.path ++ [f]⟩), h)
    | _ => none
  | .elem x y i =>
    match σ y, σ i with
    | .slice a _, .scalar (.int i) => some (σ.put x (.ptr ⟨a, [i.toNat]⟩), h)
    | _, _ => none
  | .load x y =>
    match σ y with
    | .ptr l => (Heap.load h l).map fun v => (σ.put x v, h)
    | _ => none
  | .store x y =>
    match σ x with
    | .ptr l => (Heap.store h l (σ y)).map fun h' => (σ, h')
    | _ => none
  | .new x y => some (σ.put x (.ptr ⟨h.length, []⟩), h ++ [σ y])
  | .make x y =>
    match σ y with
    | .agg vs => some (σ.put x (.slice h.length vs.length), h ++ [.agg vs])
    | _ => none
  | .reslice x y n =>
    match σ y, σ n with
    | .slice a _, .scalar (.int n) => some (σ.put x (.slice a n.toNat), h)
    | _, _ => none
  | _ => none

/-- The local variables of a new activation. -/
def args (σ : Locals) (ys : List Nat) : Locals := fun i => (ys.map σ)[i]?.getD .nilPtr

/-- One step of the machine with the procedures `P`; `none`: finished, or a panic. -/
def step (P : Nat → List Cmd) (s : State) : Option State :=
  match s.acts with
  | [] => none
  | a :: rest =>
    match a.todo with
    | [] =>
      match rest with
      | [] => none
      | b :: rest => some { s with acts := { b with loc := b.loc.put a.ret (a.loc 0) } :: rest }
    | .ite x c d :: cs =>
      match a.loc x with
      | .scalar (.bool true) => some { s with acts := { a with todo := c ++ cs } :: rest }
      | .scalar (.bool false) => some { s with acts := { a with todo := d ++ cs } :: rest }
      | _ => none
    | .loop x c :: cs =>
      match a.loc x with
      | .scalar (.bool true) => some { s with acts := { a with todo := c ++ .loop x c :: cs } :: rest }
      | .scalar (.bool false) => some { s with acts := { a with todo := cs } :: rest }
      | _ => none
    | .call x f ys :: cs =>
      some { s with acts := ⟨P f, args a.loc ys, x⟩ :: { a with todo := cs } :: rest }
    | c :: cs =>
      match prim a.loc s.heap c with
      | none => none
      | some (σ, h) => some ⟨{ a with todo := cs, loc := σ } :: rest, h⟩

/-- The states the machine goes through. -/
inductive Steps (P : Nat → List Cmd) : State → State → Prop
  | refl (s : State) : Steps P s s
  | tail {s t u : State} : Steps P s t → step P t = some u → Steps P s u

/-! ## Values as trees -/

/-- What can be seen of a value by following its pointers (the values of the rest of the model, without their
types).  Sharing cannot be seen. -/
inductive Tree where
  | scalar (s : Scalar)
  | nilPtr
  | ptr (t : Tree)
  | nilSlice
  | slice (ts : List Tree)
  | agg (ts : List Tree)

mutual
/-- `Reads h v t`: following the pointers of the value `v` in the heap `h` one sees the tree `t`. -/
inductive Reads (h : Heap) : Val → Tree → Prop
  | scalar (s : Scalar) : Reads h (.scalar s) (.scalar s)
  | nilPtr : Reads h .nilPtr .nilPtr
  | ptr {l : Loc} {v : Val} {t : Tree} : load h l = some v → Reads h v t → Reads h (.ptr l) (.ptr t)
  | nilSlice : Reads h .nilSlice .nilSlice
  | slice {a n : Nat} {vs : List Val} {ts : List Tree} : h[a]? = some (.agg vs) → n ≤ vs.length →
      ReadsAll h (vs.take n) ts → Reads h (.slice a n) (.slice ts)
  | agg {vs : List Val} {ts : List Tree} : ReadsAll h vs ts → Reads h (.agg vs) (.agg ts)
/-- Element by element. -/
inductive ReadsAll (h : Heap) : List Val → List Tree → Prop
  | nil : ReadsAll h [] []
  | cons {v : Val} {vs : List Val} {t : Tree} {ts : List Tree} : Reads h v t → ReadsAll h vs ts →
      ReadsAll h (v :: vs) (t :: ts)
end

/-! ## The deep copy, copy.go -/

/-- The zero values that gob does not send, after following pointers. -/
def Tree.zero : Tree → Bool
  | .scalar (.str s) => s = ""
  | .scalar (.int i) => i = 0
  | .scalar (.bool b) => !b
  | .scalar (.f32 x) => x.isZero
  | .scalar (.f64 x) => x.isZero
  | .nilPtr => true
  | .ptr t => t.zero
  | .nilSlice => true
  | .slice ts => ts.isEmpty
  | .agg _ => false

/-- A scalar in a field: negative zero is not sent. -/
def Scalar.sent : Scalar → Scalar
  | .f32 x => .f32 x.noNegZero
  | .f64 x => .f64 x.noNegZero
  | s => s

mutual
/-- What `gob` makes of a value (encoding and decoding into a new variable). -/
def Tree.gob : Tree → Tree
  | .agg ts => .agg (gobFields ts)
  | .slice ts => .slice (gobElems ts)
  | .ptr t => .ptr t.gob
  | t => t
/-- The fields of a struct. -/
def gobFields : List Tree → List Tree
  | [] => []
  | .ptr t :: ts => (if t.zero then .nilPtr else .ptr t.gob) :: gobFields ts
  | .scalar s :: ts => .scalar s.sent :: gobFields ts
  | t :: ts => t.gob :: gobFields ts
/-- The elements of a slice. -/
def gobElems : List Tree → List Tree
  | [] => []
  | t :: ts => t.gob :: gobElems ts
end

mutual
/-- Decoding into a new variable: everything is allocated anew.  The result is the value to be put in the
variable. -/
def build : Tree → Heap → Heap × Val
  | .scalar s, h => (h, .scalar s)
  | .nilPtr, h => (h, .nilPtr)
  | .ptr t, h => ((build t h).1 ++ [(build t h).2], .ptr ⟨(build t h).1.length, []⟩)
  | .nilSlice, h => (h, .nilSlice)
  | .slice ts, h =>
    ((buildAll ts h).1 ++ [.agg (buildAll ts h).2], .slice (buildAll ts h).1.length ts.length)
  | .agg ts, h => ((buildAll ts h).1, .agg (buildAll ts h).2)
/-- Element by element. -/
def buildAll : List Tree → Heap → Heap × List Val
  | [], h => (h, [])
  | t :: ts, h => ((buildAll ts (build t h).1).1, (build t h).2 :: (buildAll ts (build t h).1).2)
end

/-- convert.go:24-33 and encode.go:71-78, 111-118 up to the call of `convert`: `*bom` is assigned to the
receiver `b`, a new variable; `b` is encoded (which sees the tree `t`), and decoded into the new variable
`bomCopy`.  The result is the heap and the pointer `&bomCopy`.  (The buffer holding the encoded bytes contains
no pointers and is not modelled.) -/
def copyOf (t : Tree) (receiver : Val) (h : Heap) : Heap × Val :=
  let h := h ++ [receiver]
  let h := build t.gob h
  (h.1 ++ [h.2], .ptr ⟨h.1.length, []⟩)

/-- What runs after the copy: any program `c` with any procedures, whose local variables hold the pointer to the
copy (0) and scalars (the version, the options of the encoder). -/
def start (c : List Cmd) (heap : Heap) (copy : Val) (opts : List Scalar) : State :=
  ⟨[⟨c, fun i => if i = 0 then copy else match opts[i - 1]? with
      | some s => .scalar s
      | none => .nilPtr, 0⟩], heap⟩

end Verif.Heap
