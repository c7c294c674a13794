import Verif.Json.SoleLaws
import Verif.Props.JsonExclusive
import Verif.Props.Relisted

/-! # C91: a document that is read and written again keeps to one of the alternatives of its JSON schema -/

namespace Verif.Props

set_option linter.unusedSectionVars false
set_option linter.unusedSimpArgs false

variable [FloatIO]

/-- C91: what `Decode` reads from a document that uses only what the schema of version `v` declares, has everywhere only
one of the alternatives of that schema, and has no member twice, `Encode` writes with only one of the alternatives of the
schema of version `v`. -/
theorem reencode_exclusive (v : Int) (j j' : Json) (b : BOM) (h : j.Sole v) (hd : decodeJSON j {} = some b)
    (he : encodeJSON b = .ok j') : j'.Exclusive v := by
  unfold decodeJSON at hd
  split at hd
  · have := exc_bom (j.depth + 1) v j b (Nat.lt_succ_self _) h hd
    unfold encodeJSON at he
    split at he
    · cases he
    · split at he
      · cases he
      · rename_i i hi
        cases he
        exact this _ hi
  · cases hd

/-- C91 on the value: if it can be written, it has a value for only one of the alternatives. -/
theorem decode_exclusive (v : Int) (j : Json) (b : BOM) (h : j.Sole v) (hd : decodeJSON j {} = some b)
    (hw : b.Writable) (hs : SpecVersion1_2 ≤ b.specVersion) : b.Exclusive v := by
  obtain ⟨j', he⟩ := (json_encodes_iff b).2 ⟨hs, hw⟩
  exact (encode_exclusive_iff b v j' he).1 (reencode_exclusive v j j' b h hd he)

/-- C88 to C91 together: a document within all that the model has of the schema of version `v`, and with the further
conditions of these theorems, is written within it again. -/
theorem reencode_schema (v : Int) (j j' : Json) (b : BOM) (ha : j.Ample v) (hp : j.Proper v) (hs : j.Sole v)
    (hd : decodeJSON j {} = some b) (he : encodeJSON b = .ok j') :
    j'.Declared v ∧ j'.Complete v ∧ j'.Listed v ∧ j'.Exclusive v :=
  have hr := reencode_required_partial v j j' b ha hd he
  ⟨hr.2, hr.1, reencode_listed_partial v j j' b hp hd he, reencode_exclusive v j j' b hs hd he⟩

/-! ## A document that is read and written -/

theorem repeats_obj {ms : List (String × Json)} : Repeats (.obj ms) ↔ ¬ (ms.map (·.1)).Nodup ∨ ∃ m ∈ ms, Repeats m.2 := by
  constructor
  · intro h
    cases h with
    | here h => exact .inl h
    | member hm h => exact .inr ⟨_, hm, h⟩
  · rintro (h | ⟨_, hm, h⟩)
    · exact .here h
    · exact .member hm h
theorem repeats_arr {js : List Json} : Repeats (.arr js) ↔ ∃ j ∈ js, Repeats j :=
  ⟨fun h => by cases h with | elem hj h => exact ⟨_, hj, h⟩, fun ⟨_, hj, h⟩ => .elem hj h⟩
theorem repeats_str {t : String} : ¬ Repeats (.str t) := nofun
theorem repeats_num {x : NumLit} : ¬ Repeats (.num x) := nofun

/-- A component under two licenses with another one under an expression inside it, and a vulnerability of one version and
of a range of versions. -/
def alternativesDocument : Json :=
  .obj (documentStart "1.5" ++ [
    ("components", .arr [.obj [("type", .str "library"), ("name", .str "c"),
      ("licenses", .arr [.obj [("license", .obj [("id", .str "MIT")])], .obj [("license", .obj [("name", .str "Own")])]]),
      ("components", .arr [.obj [("type", .str "file"), ("name", .str "f"),
        ("licenses", .arr [.obj [("expression", .str "MIT OR ISC")]])]])]]),
    ("vulnerabilities", .arr [.obj [("affects", .arr [.obj [("ref", .str "c"),
      ("versions", .arr [.obj [("version", .str "1")], .obj [("range", .str "vers:npm/>2")]])]])]])])

theorem alternativesDocument_sole : alternativesDocument.Sole SpecVersion1_5 := by
  refine ⟨?_, ?_, ?_⟩
  · simp [alternativesDocument, documentStart, conforms_place, MemberOK, Place.members, List.lookup,
      conforms_str, Conforms.int, conforms_list, conforms_since, SpecVersion1_4, SpecVersion1_5]
  · simp [alternativesDocument, documentStart, exclusive_place, Place.Permits, Place.members, List.lookup, exclusive_list,
      Sch.Uniform, Json.HasMember, exclusive_since, HasExclusive.str, HasExclusive.int, SpecVersion1_5, SpecVersion1_6,
      SpecVersion1_7]
  · simp [alternativesDocument, documentStart, repeats_obj, repeats_arr, repeats_str, repeats_num]

example : ∃ b, decodeJSON alternativesDocument {} = some b ∧
    b.components.elems.map (·.licenses.elems.map (·.license.map (·.id))) = [[some "MIT", some ""]] ∧
    ∃ j, encodeJSON b = .ok j ∧ j.Exclusive SpecVersion1_5 := by
  have hd : decodeJSON alternativesDocument {} = some
      { bomFormat := "CycloneDX", specVersion := 6, version := 1,
        components := .list [{ type := "library", name := "c", licenses := .list [{ license := some { id := "MIT" } }, { license := some { name := "Own" } }], components := .list [{ type := "file", name := "f", licenses := .list [{ expression := "MIT OR ISC" }] }] }],
        vulnerabilities := .list [{ affects := .list [{ ref := "c", range := .list [{ version := "1" }, { range := "vers:npm/>2" }] }] }] } := rfl
  refine ⟨_, hd, rfl, ?_⟩
  exact ⟨_, rfl, reencode_exclusive _ _ _ _ alternativesDocument_sole hd rfl⟩

/-- A component under an expression. -/
def expressionDocument : Json :=
  .obj (documentStart "1.5" ++ [("components", .arr [.obj [("type", .str "library"), ("name", .str "c"),
    ("licenses", .arr [.obj [("expression", .str "MIT OR ISC")]])]])])

example : expressionDocument.Ample SpecVersion1_5 ∧ expressionDocument.Proper SpecVersion1_5 ∧
    expressionDocument.Sole SpecVersion1_5 := by
  have hc : Conforms SpecVersion1_5 (.place .bom) expressionDocument := by
    simp [expressionDocument, documentStart, conforms_place, MemberOK, Place.members, List.lookup,
      conforms_str, Conforms.int, conforms_list, conforms_since, SpecVersion1_5]
  have hr : HasRequired SpecVersion1_5 (.place .bom) expressionDocument := by
    simp [expressionDocument, documentStart, required_place, Place.Needs, Place.members, List.lookup, required_list,
      required_since, HasRequired.str, HasRequired.int, SpecVersion1_3, SpecVersion1_5]
  refine ⟨⟨hc, hr, ?_⟩, ⟨hc, hr, ?_, ?_⟩, ⟨hc, ?_, ?_⟩⟩
  · simp [expressionDocument, documentStart, scant_place, Place.members, List.lookup, scant_list, scant_since, scant_str,
      scant_int]
  · simp [expressionDocument, documentStart, listed_place, Place.ListsValue, Place.Lists, Place.enums, Place.members,
      and_assoc, or_and_right, exists_or, List.lookup, listed_list, listed_since, HasListed.str, HasListed.int,
      SpecVersion1_0, SpecVersion1_5, SpecVersion1_6]
  · simp [expressionDocument, documentStart, terse_place, Place.members, List.lookup, terse_list, terse_since, terse_str,
      terse_int]
  · simp [expressionDocument, documentStart, exclusive_place, Place.Permits, Place.members, List.lookup, exclusive_list,
      Sch.Uniform, exclusive_since, HasExclusive.str, HasExclusive.int, SpecVersion1_5, SpecVersion1_6, SpecVersion1_7]
  · simp [expressionDocument, documentStart, repeats_obj, repeats_arr, repeats_str, repeats_num]

/-! ## Repeated members -/

/-- The affected versions are given twice, once by a version and once by a range. -/
def twiceAffectedDocument : Json :=
  .obj (documentStart "1.5" ++ [("vulnerabilities", .arr [.obj [("affects", .arr [.obj [("ref", .str "c"),
    ("versions", .arr [.obj [("version", .str "1")]]),
    ("versions", .arr [.obj [("range", .str "vers:npm/>2")]])]])]])])

/-- What is read from it. -/
def twiceAffectedBOM : BOM :=
  { bomFormat := "CycloneDX", specVersion := 6, version := 1,
    vulnerabilities := .list [{ affects := .list [{ ref := "c", range := .list [{ version := "1", range := "vers:npm/>2" }] }] }] }

/-- That no member is repeated is needed: the second array of affected versions is read into the elements of the first,
and what is written has both alternatives. -/
theorem reencode_merges_alternatives : twiceAffectedDocument.Declared SpecVersion1_5 ∧
    twiceAffectedDocument.Exclusive SpecVersion1_5 ∧
    ∃ b j, decodeJSON twiceAffectedDocument {} = some b ∧ encodeJSON b = .ok j ∧ ¬ j.Exclusive SpecVersion1_5 := by
  refine ⟨?_, ?_, ?_⟩
  · simp [twiceAffectedDocument, documentStart, Json.Declared, conforms_place, MemberOK, Place.members, List.lookup,
      conforms_str, Conforms.int, conforms_list, conforms_since, SpecVersion1_4, SpecVersion1_5]
  · simp [twiceAffectedDocument, documentStart, Json.Exclusive, exclusive_place, Place.Permits, Place.members, List.lookup,
      exclusive_list, Sch.Uniform, Json.HasMember, exclusive_since, HasExclusive.str, HasExclusive.int]
  · have hd : decodeJSON twiceAffectedDocument {} = some twiceAffectedBOM := rfl
    obtain ⟨j, hj⟩ := (json_encodes_iff twiceAffectedBOM).2 ⟨by decide, by
      simp [BOM.Writable, twiceAffectedBOM, PSlice.elems, Vulnerability.Writable]⟩
    refine ⟨_, j, hd, hj, ?_⟩
    rw [encode_exclusive_iff _ _ _ hj]
    simp [BOM.Exclusive, twiceAffectedBOM, PSlice.elems, Vulnerability.Exclusive, Affects.Exclusive,
      AffectedVersions.Exclusive]

end Verif.Props
