import Verif.Xml.ReadLaws
import Verif.Xml.ValidCheck
import Verif.Xml.Encoder

/-! # C71: which documents of the form that an XML schema declares are read -/

namespace Verif.Props

set_option linter.unusedSectionVars false

open Xml (trim textOf)

variable [XFloatIO]

/-- C71: a document of the form that the XML schema of some version declares is refused by `Decode`, whatever the
variable holds, exactly if one of the texts that are taken as numbers or booleans (`XPlace.scalarAttrs`,
`XPlace.scalarElems`), at any depth, is not one. -/
theorem decodeXML_refuses_iff (v : Int) (order : List (Int × String)) (doc : XmlDoc) (old : BOM) (h : doc.Valid v) :
    decodeXML order doc old = none ↔ doc.Refused := by
  simp only [decodeXML, h.2.1, if_true, Option.map_eq_none_iff, XmlDoc.Refused]
  exact xread_bom (doc.root.depth + 1) v doc.root _ (Nat.lt_succ_self _) h.2.2

/-- C71 for texts: if the parser of `encoding/xml` reads the text as that document, which is not nested too deep for
it. -/
theorem decodeXMLText_refuses_iff [XmlIO] [XmlText.XmlLang] (v : Int) (order : List (Int × String)) (t : List Char)
    (doc : XmlDoc) (old : BOM) (ht : XmlText.parse t = some doc) (h : doc.Valid v) :
    decodeXMLText order t old = none ↔ XmlIO.tooDeep doc.root = true ∨ doc.Refused := by
  simp only [decodeXMLText, ht]
  rw [← decodeXML_refuses_iff v order doc old h]
  split
  · simp [*]
  · rename_i hd; simp [hd]

/-- C71: the documents of that form without numbers and booleans that are not are read. -/
theorem decodeXML_accepts (v : Int) (order : List (Int × String)) (doc : XmlDoc) (old : BOM) (h : doc.Valid v)
    (hr : ¬ doc.Refused) : ∃ b, decodeXML order doc old = some b := by
  cases e : decodeXML order doc old with
  | some b => exact ⟨b, rfl⟩
  | none => exact absurd ((decodeXML_refuses_iff v order doc old h).1 e) hr

/-- What the schemas call a boolean (`xs:boolean`) is one. -/
theorem xs_boolean_read (s : String) (h : trim s ∈ ["true", "false", "0", "1"]) : ¬ XScalar.bool.Bad s := by
  rintro ⟨_, hb⟩
  apply hb
  simp only [List.mem_cons, List.not_mem_nil, or_false] at h
  rcases h with h | h | h | h <;> simp [h]

/-- What the schemas call an integer (`xs:integer`) is one if it has 64 bits. -/
theorem xs_integer_read (s : String) (i : Int) (hi : InInt64 i) (h : IsDecimal (trim s).toList i) :
    ¬ XScalar.int.Bad s := fun hb => hb.2 ⟨i, hi.1, hi.2, h⟩

omit [XFloatIO] in
theorem IsDecimal.unique {cs : List Char} {i j : Int} (hi : IsDecimal cs i) (hj : IsDecimal cs j) : i = j := by
  have nodig : ∀ c : Char, c = '+' ∨ c = '-' → ¬ ('0' ≤ c ∧ c ≤ '9') := by
    rintro c (rfl | rfl) <;> decide
  obtain ⟨ds, _, hd, ⟨rfl | rfl, rfl⟩ | ⟨rfl, rfl⟩⟩ := hi <;>
    obtain ⟨es, _, he, ⟨h | h, rfl⟩ | ⟨h, rfl⟩⟩ := hj
  · rw [h]
  · subst h; exact absurd (hd '+' (by simp)) (nodig _ (.inl rfl))
  · subst h; exact absurd (hd '-' (by simp)) (nodig _ (.inr rfl))
  · subst h; exact absurd (he '+' (by simp)) (nodig _ (.inl rfl))
  · cases h; rfl
  · cases h
  · subst h; exact absurd (he '-' (by simp)) (nodig _ (.inr rfl))
  · cases h
  · cases h; rfl

/-- What the schemas call an integer is none for `Decode` if it does not have 64 bits. -/
theorem xs_integer_refused (s : String) (i : Int) (hi : ¬ InInt64 i) (h : IsDecimal (trim s).toList i) :
    XScalar.int.Bad s := by
  refine ⟨?_, ?_⟩
  · rintro rfl
    obtain ⟨ds, hne, _, ⟨h | h, _⟩ | ⟨h, _⟩⟩ := h
    · exact hne (by simpa [trim, Xml.trimChars] using h.symm)
    · simp [trim, Xml.trimChars] at h
    · simp [trim, Xml.trimChars] at h
  · rintro ⟨j, h₁, h₂, hj⟩
    exact hi (IsDecimal.unique h hj ▸ ⟨h₁, h₂⟩)

/-! ## Cases -/

/-- A component inside a component, with a scope and a text for `modified`. -/
def xmlModified (s : String) : XmlDoc where
  space := "http://cyclonedx.org/schema/bom/1.4"
  root := .elem "bom" [("xmlns", "http://cyclonedx.org/schema/bom/1.4"), ("version", "1")] [.text "\n  ",
    .elem "components" [] [.elem "component" [("type", "application")] [
      .elem "name" [] [.text "outer"], .elem "version" [] [.text "1.0"],
      .elem "licenses" [] [.elem "license" [] [.elem "id" [] [.text "MIT"]]],
      .elem "components" [] [.elem "component" [("type", "library"), ("bom-ref", "inner")] [
        .elem "name" [] [.text "inner"], .elem "version" [] [.text "2.0"], .elem "modified" [] [.text s]]]]]]

/-- It is of the form that the schema of version 1.4 declares. -/
theorem xmlModified_valid (s : String) (h : s = "yes" ∨ s = " true\n") : (xmlModified s).Valid SpecVersion1_4 := by
  rcases h with rfl | rfl
  · exact ⟨rfl, rfl, xvalid_of_check 7 _ _ (by decide +kernel)⟩
  · exact ⟨rfl, rfl, xvalid_of_check 7 _ _ (by decide +kernel)⟩

/-- With a boolean it is read, with another word it is refused. -/
example (order : List (Int × String)) (old : BOM) : decodeXML order (xmlModified "yes") old = none ∧
    ∃ b, decodeXML order (xmlModified " true\n") old = some b := by
  constructor
  · rw [decodeXML_refuses_iff SpecVersion1_4 order _ old (xmlModified_valid _ (.inl rfl))]
    refine .inside (n := "components") (q := .components) (by decide) (List.mem_cons_of_mem _ (List.mem_singleton.mpr rfl)) ?_
    refine .inside (n := "component") (q := .component) (by decide) (List.mem_singleton.mpr rfl) ?_
    refine .inside (n := "components") (q := .components) (by decide)
      (by simp only [List.mem_cons]; exact .inr (.inr (.inr (.inl rfl)))) ?_
    refine .inside (n := "component") (q := .component) (by decide) (List.mem_singleton.mpr rfl) ?_
    refine .elem (k := .bool) (n := "modified") (by decide)
      (by simp only [List.mem_cons]; exact .inr (.inr (.inl rfl))) ?_
    exact (bad_bool _).1 (by decide +kernel)
  · exact ⟨_, rfl⟩

/-- A version that is an `xs:integer`. -/
def xmlHugeVersion : XmlDoc where
  space := "http://cyclonedx.org/schema/bom/1.0"
  root := .elem "bom" [("version", "9223372036854775808")] [.elem "components" [] []]

/-- The schema does not bound the version of a BOM, `Decode` does. -/
theorem decodeXML_refuses_huge (order : List (Int × String)) (old : BOM) : xmlHugeVersion.Valid SpecVersion1_0 ∧
    decodeXML order xmlHugeVersion old = none := by
  have hv : xmlHugeVersion.Valid SpecVersion1_0 := ⟨rfl, rfl, xvalid_of_check 3 _ _ (by decide +kernel)⟩
  refine ⟨hv, ?_⟩
  rw [decodeXML_refuses_iff SpecVersion1_0 order _ old hv]
  exact .attr (a := "version") (k := .int) (by decide) (List.mem_singleton.mpr rfl) ((bad_int _).1 (by decide +kernel))

end Verif.Props
