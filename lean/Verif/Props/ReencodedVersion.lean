import Verif.Props.Reexclusive
import Verif.Props.JsonRequired

/-! # C92: a document that is read and written for another version keeps to the schema of that version -/

namespace Verif.Props

set_option linter.unusedSectionVars false
set_option linter.unusedSimpArgs false

variable [FloatIO]

/-- C92, what is required: from a document that has what 1.7 requires, none of it empty, is read a BOM that, if it can be
written and is equal to its deep copy, `EncodeVersion` writes for every version with all that this version requires. -/
theorem reencodeVersion_required_partial (v : Int) (j j₀ j' : Json) (b : BOM) (h : j.Ample SpecVersion1_7)
    (hd : decodeJSON j {} = some b) (h₀ : encodeJSON b = .ok j₀) (hc : b.Copyable) (he : encodeVersionJSON b v = .ok j') :
    j'.Complete v :=
  encodeVersion_required_partial b v j' hc
    ((encode_required_iff b _ j₀ h₀).1 (reencode_required_partial _ j j₀ b h hd h₀).1) he

/-- C92, alternatives: from a document with one of the alternatives of 1.7 is read a BOM that, if it can be written,
`EncodeVersion` writes for every version but 1.5 and 1.6 with one of the alternatives of that version … -/
theorem reencodeVersion_exclusive_partial (v : Int) (j j₀ j' : Json) (b : BOM) (hv : v ≤ SpecVersion1_4 ∨ v = SpecVersion1_7)
    (h : j.Sole SpecVersion1_7) (hd : decodeJSON j {} = some b) (h₀ : encodeJSON b = .ok j₀)
    (he : encodeVersionJSON b v = .ok j') : j'.Exclusive v :=
  encodeVersion_exclusive_partial b v j' hv
    ((encode_exclusive_iff b _ j₀ h₀).1 (reencode_exclusive _ j j₀ b h hd h₀)) he

/-- … and from a document with one of the alternatives of any version one that is written for that version so, and from
one with those of 1.6 one that is written so for all versions up to 1.6. -/
theorem reencodeVersion_exclusive (v w : Int) (j j₀ j' : Json) (b : BOM)
    (hw : w = v ∨ v ≤ SpecVersion1_6 ∧ w = SpecVersion1_6) (h : j.Sole w) (hd : decodeJSON j {} = some b)
    (h₀ : encodeJSON b = .ok j₀) (he : encodeVersionJSON b v = .ok j') : j'.Exclusive v := by
  have hb := (encode_exclusive_iff b _ j₀ h₀).1 (reencode_exclusive _ j j₀ b h hd h₀)
  rcases hw with rfl | ⟨hv, rfl⟩
  · exact encodeVersion_exclusive b _ j' hb he
  · exact encodeVersion_exclusive b v j' (exclusive_of_1_6 b v hv hb) he

/-- C92, enumerations: from a document with the strings that a version enumerates is read a BOM that, if it can be written
and is equal to its deep copy, `EncodeVersion` writes for that version with such strings only. -/
theorem reencodeVersion_listed_partial (v : Int) (j j₀ j' : Json) (b : BOM) (h : j.Proper v)
    (hd : decodeJSON j {} = some b) (h₀ : encodeJSON b = .ok j₀) (hc : b.Copyable) (he : encodeVersionJSON b v = .ok j') :
    j'.Listed v :=
  encodeVersion_listed_partial b v j' hc
    ((encode_listed_iff b _ j₀ h₀).1 (reencode_listed_partial _ j j₀ b h hd h₀)) he

/-! ## A document that is written for every version -/

/-- A component without version, which 1.7 and 1.4 to 1.6 allow and 1.2 and 1.3 do not, and an affected version. -/
def latestDocument : Json :=
  .obj (documentStart "1.7" ++ [
    ("components", .arr [.obj [("type", .str "library"), ("name", .str "c"), ("versionRange", .str "vers:npm/>2"), ("bom-ref", .str "c")]]),
    ("vulnerabilities", .arr [.obj [("affects", .arr [.obj [("ref", .str "c"),
      ("versions", .arr [.obj [("range", .str "vers:npm/>2"), ("status", .str "affected")]])]])]])])

/-- What is read from it. -/
def latestBOM : BOM :=
  { bomFormat := "CycloneDX", specVersion := 8, version := 1,
    components := .list [{ type := "library", name := "c", versionRange := "vers:npm/>2", bomRef := "c" }],
    vulnerabilities := .list [{ affects := .list [{ ref := "c", range := .list [{ range := "vers:npm/>2", status := "affected" }] }] }] }

example : ∀ v, SpecVersion1_2 ≤ v → v ≤ SpecVersion1_4 → ∃ b j', decodeJSON latestDocument {} = some b ∧
    encodeVersionJSON b v = .ok j' ∧ j'.Complete v ∧ j'.Exclusive v := by
  intro v hv hv4
  have hd : decodeJSON latestDocument {} = some latestBOM := rfl
  have hc : Conforms SpecVersion1_7 (.place .bom) latestDocument := by
    simp [latestDocument, documentStart, conforms_place, MemberOK, Place.members, List.lookup,
      conforms_str, Conforms.int, conforms_list, conforms_since, SpecVersion1_4, SpecVersion1_7]
  have hr : HasRequired SpecVersion1_7 (.place .bom) latestDocument := by
    simp [latestDocument, documentStart, required_place, Place.Needs, Place.members, List.lookup, required_list,
      required_since, HasRequired.str, HasRequired.int, SpecVersion1_3, SpecVersion1_7]
  have ha : latestDocument.Ample SpecVersion1_7 := ⟨hc, hr, by
    simp [latestDocument, documentStart, scant_place, Place.members, List.lookup, scant_list, scant_since, scant_str,
      scant_int]⟩
  have hs : latestDocument.Sole SpecVersion1_7 := ⟨hc, by
      simp [latestDocument, documentStart, exclusive_place, Place.Permits, Place.members, List.lookup, exclusive_list,
        Sch.Uniform, exclusive_since, HasExclusive.str, HasExclusive.int, SpecVersion1_7], by
      simp [latestDocument, documentStart, repeats_obj, repeats_arr, repeats_str, repeats_num]⟩
  obtain ⟨j₀, h₀⟩ := (json_encodes_iff latestBOM).2 ⟨by decide, by
    simp [BOM.Writable, latestBOM, PSlice.elems, Component.Writable, WritableComponents, WritablePedigreeOpt,
      Vulnerability.Writable]⟩
  obtain ⟨j', he⟩ := encodeVersion_total_partial latestBOM v j₀ h₀
    (by simp [BOM.ToolsNonEmpty, latestBOM, PSlice.elems]) hv
  exact ⟨_, j', hd, he, reencodeVersion_required_partial v _ j₀ j' _ ha hd h₀ ((copy_eq_iff _).1 rfl) he,
    reencodeVersion_exclusive_partial v _ j₀ j' _ (.inl hv4) hs hd h₀ he⟩

end Verif.Props
