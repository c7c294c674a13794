import Verif.Spec.JsonSchema
import Verif.Json.Codec

/-!
# What a JSON document says is also said by another one

`Carried s j j'`: everything that `j` says, where `s` is declared for `j`, is also in `j'`, at the same place: the
elements of arrays one by one, the members of objects by name.  Excepted are the empty values (`Blank`: they may be
left out), and the members listed in `Hidden`, for which the Go types have no place.  Conversely, `j'` says nothing
that is not in `j`: a member that is in `j'` only is `Bare`.
-/

namespace Verif

/-- A value that says as much as one that is missing. -/
inductive Blank : Json → Prop
  | str : Blank (.str "")
  | bool : Blank (.bool false)
  | int : Blank (.num (.ofInt 0))

section
variable [FloatIO]
/-- A value without content. -/
inductive Bare : Json → Prop
  | null : Bare .null
  | blank {j : Json} (h : Blank j) : Bare j
  | float32 {l : NumLit} (h : FloatIO.parse32 l = some ⟨0⟩) : Bare (.num l)
  | float64 {l : NumLit} (h : FloatIO.parse64 l = some ⟨0⟩) : Bare (.num l)
  | obj {ms : List (String × Json)} (h : ∀ m ∈ ms, Bare m.2) : Bare (.obj ms)
end

/-- The object has a member of this name that is a non-empty string. -/
def Says (k : String) (ms : List (String × Json)) : Prop := ∃ t, t ≠ "" ∧ (k, Json.str t) ∈ ms

/-- The members for which the Go type of the object has no place, at all or because of another member.

* cyclonedx.go:910: the signer embedded in `JSFSignature` has the tag `json:"-"`;
* cyclonedx.go:1065-1070: no field for the properties of a model card;
* cyclonedx_json.go:320-349: an asserter is looked for one level deeper than the schema declares it;
* cyclonedx.go:1226-1229, 1756: so are the assignees of a patent;
* the alternatives of the schema (`oneOf`): one kind of certificate state or extension, of patent or data set hides
  the members of the other kind. -/
def Hidden : Place → List (String × Json) → String → Prop
  | .signature, _, k => k ∈ ["algorithm", "keyId", "publicKey", "certificatePath", "excludes", "value"]
  | .modelCard, _, k => k = "properties"
  | .asserter, _, _ => True
  | .patentAssignee, _, _ => True
  | .modelDataset, ms, k => Says "ref" ms ∧ k ≠ "ref"
  | .certificateState, ms, k => Says "state" ms ∧ k ∈ ["name", "description"]
  | .certificateExtension, ms, k =>
    Says "commonExtensionName" ms ∧ k ∈ ["customExtensionName", "customExtensionValue"] ∨
      ¬ Says "commonExtensionName" ms ∧ k = "commonExtensionValue"
  | .patentOrFamily, ms, k =>
    Says "familyId" ms ∧ k ∈ ["patentNumber", "applicationNumber", "jurisdiction", "publicationNumber", "title",
      "abstract", "filingDate", "grantDate", "patentExpirationDate", "patentLegalStatus", "patentAssignee"] ∨
      ¬ Says "familyId" ms ∧ k = "members"
  | _, _, _ => False

variable [FloatIO]

/-- See the header.  (`σ` and `τ` give for every member what is declared for it and its value in the other
document, `ρ` for every member of the other document the one it comes from.) -/
inductive Carried : Sch → Json → Json → Prop
  | blank {s : Sch} {j j' : Json} (h : Blank j) (h' : Bare j') : Carried s j j'
  | str (t : String) : Carried .str (.str t) (.str t)
  | bool (b : Bool) : Carried .bool (.bool b) (.bool b)
  | int (i : Int) : Carried .int (.num (.ofInt i)) (.num (.ofInt i))
  /-- the same number as a `float32` or as a `float64` -/
  | float32 {l l' : NumLit} (x : F32) (h : FloatIO.parse32 l = some x) (h' : FloatIO.parse32 l' = some x) :
      Carried .num (.num l) (.num l')
  | float64 {l l' : NumLit} (x : F64) (h : FloatIO.parse64 l = some x) (h' : FloatIO.parse64 l' = some x) :
      Carried .num (.num l) (.num l')
  | list {s : Sch} {js js' : List Json} (hl : js.length = js'.length)
      (h : ∀ (i : Nat) (hi : i < js.length) (hi' : i < js'.length), Carried s js[i] js'[i]) :
      Carried (.list s) (.arr js) (.arr js')
  | place {p : Place} {ms ms' : List (String × Json)} (σ : String × Json → Sch) (τ : String × Json → Json)
      (ρ : String × Json → String × Json)
      (declared : ∀ m ∈ ms, p.members.lookup m.1 = some (σ m))
      (there : ∀ m ∈ ms, ¬ Blank m.2 → ¬ Hidden p ms m.1 → (m.1, τ m) ∈ ms')
      (h : ∀ m ∈ ms, ¬ Blank m.2 → ¬ Hidden p ms m.1 → Carried (σ m) m.2 (τ m))
      (origin : ∀ m ∈ ms', ¬ Bare m.2 → ρ m ∈ ms ∧ (ρ m).1 = m.1)
      (h' : ∀ m ∈ ms', ¬ Bare m.2 → Carried (σ (ρ m)) (ρ m).2 m.2) :
      Carried (.place p) (.obj ms) (.obj ms')
  | left {s t : Sch} {j j' : Json} (h : Carried s j j') : Carried (.alt s t) j j'
  | right {s t : Sch} {j j' : Json} (h : Carried t j j') : Carried (.alt s t) j j'
  | since {n : Int} {s : Sch} {j j' : Json} (h : Carried s j j') : Carried (.since n s) j j'

end Verif
