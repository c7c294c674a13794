import Verif.Json.Number

/-!
# JSON values

The syntax trees `encoding/json` reads and writes.  The text layer (tokens, white space, string escapes)
is modelled separately; here a document is a tree.  A number keeps its literal, as Go's decoder does
when it stores a number (it hands the literal to `strconv`).
-/

namespace Verif

/-- A JSON value.  The members of an object are in the order of the text, and a name may occur more than
once, as in the input of `json.Unmarshal`. -/
inductive Json where
  | null
  | bool (b : Bool)
  | num (lit : NumLit)
  | str (s : String)
  | arr (xs : List Json)
  | obj (ms : List (String × Json))

namespace Json

mutual
/-- The nesting depth `encoding/json`'s scanner counts: every array and object adds one
(`pushParseState` fails beyond 10000). -/
def depth : Json → Nat
  | .arr xs => depthL xs + 1
  | .obj ms => depthM ms + 1
  | _ => 0
/-- `depth` of the elements of an array. -/
def depthL : List Json → Nat
  | [] => 0
  | x :: xs => max x.depth (depthL xs)
/-- `depth` of the members of an object. -/
def depthM : List (String × Json) → Nat
  | [] => 0
  | m :: ms => max (depthP m) (depthM ms)
/-- `depth` of one member. -/
def depthP : String × Json → Nat
  | (_, j) => j.depth
end

/-- `encoding/json`'s `foldRune`, restricted to what matters for matching ASCII field names: ASCII
letters fold to upper case, and exactly two other characters fold to an ASCII letter, U+017F to `S` and
U+212A to `K`.  (Other characters have fold classes without ASCII members; they are left alone here,
which cannot change whether they match an ASCII name.) -/
def foldChar (c : Char) : Char :=
  if 'a' ≤ c ∧ c ≤ 'z' then Char.ofNat (c.toNat - 32)
  else if c = Char.ofNat 0x17f then 'S'
  else if c = Char.ofNat 0x212a then 'K'
  else c

/-- `encoding/json`'s `foldName`: the case-insensitive form of a member name. -/
def foldKey (s : String) : List Char := s.toList.map foldChar

mutual
/-- No object of the document has two members whose names are equal up to case. -/
def Distinct : Json → Prop
  | .arr xs => DistinctL xs
  | .obj ms => (ms.map fun m => foldKey m.1).Nodup ∧ DistinctM ms
  | _ => True
/-- `Distinct` for the elements of an array. -/
def DistinctL : List Json → Prop
  | [] => True
  | x :: xs => x.Distinct ∧ DistinctL xs
/-- `Distinct` for the members of an object. -/
def DistinctM : List (String × Json) → Prop
  | [] => True
  | m :: ms => DistinctP m ∧ DistinctM ms
/-- `Distinct` for one member. -/
def DistinctP : String × Json → Prop
  | (_, j) => j.Distinct
end

/-- One change of the order of members: two neighbouring members of one object, anywhere in the
document, change places. -/
inductive Swap : Json → Json → Prop
  | here (pre : List (String × Json)) (m₁ m₂ : String × Json) (post : List (String × Json)) :
      Swap (.obj (pre ++ m₁ :: m₂ :: post)) (.obj (pre ++ m₂ :: m₁ :: post))
  | member (pre : List (String × Json)) (k : String) {j j' : Json} (post : List (String × Json)) :
      Swap j j' → Swap (.obj (pre ++ (k, j) :: post)) (.obj (pre ++ (k, j') :: post))
  | elem (pre : List Json) {j j' : Json} (post : List Json) :
      Swap j j' → Swap (.arr (pre ++ j :: post)) (.arr (pre ++ j' :: post))

/-- Two documents that differ only in the order of the members of their objects. -/
inductive Reordered : Json → Json → Prop
  | refl (j : Json) : Reordered j j
  | step {j j' j'' : Json} : Swap j j' → Reordered j' j'' → Reordered j j''

/-- Go's classes of values as the decoder reports them. -/
def isNull : Json → Bool
  | .null => true
  | _ => false

theorem isNull_iff (j : Json) : j.isNull = true ↔ j = .null := by cases j <;> simp [isNull]

end Json
end Verif
