import Verif.Json.Structs
import Verif.Xml.Codec

/-!
# The XML codecs of the types of the library

GENERATED by `tools/gen_xml.py` from the declarations and the `xml` tags of `/repo/cyclonedx.go`, with the
types that have their own `MarshalXML` or `UnmarshalXML` (`/repo/cyclonedx_xml.go`) written out by hand in
the generator; do not edit by hand.

`X.tFields` lists the fields of a struct `T` with their tags and `X.t` is the codec.  The products of the
fields (`T.P`, `T.toP`, `T.ofP`) are those of `Verif.Json.Structs`.
-/

namespace Verif

open Xml (sanitize trim textOf textKids)

variable [XFloatIO]

set_option linter.unusedSectionVars false

/-- Go `string` and the named string types, as an element. -/
abbrev X.string : XCodec String := XCodec.simple XText.string
/-- Go `bool`, as an element. -/
abbrev X.bool : XCodec Bool := XCodec.simple XText.bool
/-- Go `int`, as an element. -/
abbrev X.int : XCodec Int := XCodec.simple XText.int
/-- Go `float32`, as an element. -/
abbrev X.f32 : XCodec F32 := XCodec.simple XText.f32
/-- Go `float64`, as an element. -/
abbrev X.f64 : XCodec F64 := XCodec.simple XText.f64

/-- A codec that fails on everything; where the approximations of a recursive codec start. -/
def X.bottom {α : Type} (zero : α) : XCodec α where
  enc _ _ := none
  dec _ _ := none
  zero := zero
  empty _ := false

/-- The codec of a recursive type out of its approximations `N 0`, `N 1`, …, where `N n` handles values
nested less than `n` deep.  A value is encoded by the approximation for its own height, an element decoded by
the one for its depth. -/
def X.knot {α : Type} (zero : α) (N : Nat → XCodec α) (height : α → Nat) : XCodec α where
  enc n a := (N (height a)).enc n a
  dec x a := (N (x.depth + 1)).dec x a
  zero := zero
  empty _ := false
  norm a := (N (height a)).norm a
  good a := (N (height a)).good a

/-- Decoding into a new variable, whatever the destination holds; the destination is then overwritten. -/
def X.fresh {α : Type} (c : XCodec α) : XCodec α := { c with dec := fun x _ => c.dec x c.zero }

/-- A loop that writes every element of a slice. -/
def X.encEach {α : Type} (f : α → Option (List Xml)) : List α → Option (List Xml)
  | [] => some []
  | a :: as =>
    match f a with
    | none => none
    | some ks => (X.encEach f as).map (ks ++ ·)

/-- A loop over the tokens of a content that appends to a slice. -/
def X.decEach {α : Type} (g : Xml → Option (List α)) : List Xml → Option (List α)
  | [] => some []
  | x :: xs =>
    match g x with
    | none => none
    | some as => (X.decEach g xs).map (as ++ ·)

/-- cyclonedx_xml.go:30-32 `bomReferenceXML` -/
def X.bomReferenceFields : XFields (String × Unit) := .attr "ref" false XText.string .nil

/-- cyclonedx_xml.go:34-45: a reference, where it is an element, is the attribute `ref`. -/
def X.bomReference : XCodec BOMReference :=
  { X.fresh (XCodec.struct X.bomReferenceFields (fun r => (r.val, ())) (fun p => ⟨p.1⟩)) with
    empty := fun r => r.val = "" }

/-- cyclonedx_xml.go:62-66 `dependencyXML`, where it is nested in another one: only the attribute is used, and
reading the rest of it cannot fail. -/
def X.dependencyRef : XCodec String :=
  XCodec.struct X.bomReferenceFields (fun r => (r, ())) (fun p => p.1)

/-- cyclonedx_xml.go:566-596, shared by the five IKEv2 types: a reference is written as text, everything else
as the struct without the reference; an element with text in which none of the fields is set is read as a
reference.  `F` lists the fields other than the reference and `isRef` says that none of them is set. -/
def X.ikev2 {σ β : Type} (F : XFields β) (toP : σ → BOMReference × β) (ofP : BOMReference × β → σ)
    (isRef : β → Bool) : XCodec σ where
  enc n v :=
    if (toP v).1.val ≠ "" then some (some (.elem n [] (textKids (sanitize (toP v).1.val))))
    else (XCodec.struct (.skip ⟨""⟩ F) toP ofP).enc n v
  dec x v :=
    match (XFields.chardata F).dec x ("", F.zero) with
    | none => none
    | some p =>
      if trim p.1 ≠ "" ∧ isRef p.2 = true then some (ofP (⟨trim p.1⟩, (toP v).2))
      else some (ofP ((toP v).1, p.2))
  zero := ofP (⟨""⟩, F.zero)
  empty _ := false
  norm v :=
    if (toP v).1.val ≠ "" then ofP (⟨trim (sanitize (toP v).1.val)⟩, F.zero)
    else ofP (⟨""⟩, F.norm (toP v).2)
  good v := (toP v).1.val = "" → F.good (toP v).2
