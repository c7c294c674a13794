import Verif.Json.Value
import Verif.Spec.JsonNames

/-!
# Relations between JSON documents used in the statements about decoding
-/

namespace Verif.Spec

/-- Two documents that differ by any number of changes, each to the member list of one object at any depth,
and each allowed by `R`. -/
inductive Deep (R : List (String × Json) → List (String × Json) → Prop) : Json → Json → Prop
  | refl (j : Json) : Deep R j j
  | trans {j₁ j₂ j₃ : Json} : Deep R j₁ j₂ → Deep R j₂ j₃ → Deep R j₁ j₃
  | here {ms ms' : List (String × Json)} : R ms ms' → Deep R (.obj ms) (.obj ms')
  | member (pre : List (String × Json)) (k : String) {j j' : Json} (post : List (String × Json)) :
      Deep R j j' → Deep R (.obj (pre ++ (k, j) :: post)) (.obj (pre ++ (k, j') :: post))
  | elem (pre : List Json) {j j' : Json} (post : List Json) :
      Deep R j j' → Deep R (.arr (pre ++ j :: post)) (.arr (pre ++ j' :: post))

/-- The values of the members whose name is `n` up to case, in their order. -/
def valuesOf (n : String) : List (String × Json) → List Json
  | [] => []
  | (k, j) :: ms => if Json.foldKey k = Json.foldKey n then j :: valuesOf n ms else valuesOf n ms

/-- Two member lists with the same values for each name of the format. -/
def SameValues (ms ms' : List (String × Json)) : Prop := ∀ n ∈ jsonNames, valuesOf n ms = valuesOf n ms'

/-- A name that no type of the library uses, in any case. -/
def Unknown (k : String) : Prop := ∀ n ∈ jsonNames, Json.foldKey k ≠ Json.foldKey n

/-- The second list has one more member, whose name the format does not know. -/
def AddsUnknown (ms ms' : List (String × Json)) : Prop :=
  ∃ pre k j post, Unknown k ∧ ms = pre ++ post ∧ ms' = pre ++ (k, j) :: post

/-- The second list has one member's name written in another case. -/
def Recases (ms ms' : List (String × Json)) : Prop :=
  ∃ pre k k' j post, Json.foldKey k = Json.foldKey k' ∧ ms = pre ++ (k, j) :: post ∧
    ms' = pre ++ (k', j) :: post

/-- The second list has two neighbours with different names exchanged. -/
def Exchanges (ms ms' : List (String × Json)) : Prop :=
  ∃ pre k j k' j' post, Json.foldKey k ≠ Json.foldKey k' ∧ ms = pre ++ (k, j) :: (k', j') :: post ∧
    ms' = pre ++ (k', j') :: (k, j) :: post

/-- Two documents that differ only in the order of the members of their objects, at any depth. -/
abbrev Shuffled : Json → Json → Prop := Deep List.Perm

end Verif.Spec
