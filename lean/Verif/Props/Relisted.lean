import Verif.Json.ListedLaws
import Verif.Props.JsonEnums
import Verif.Props.Recompleted

/-! # C90: a document that is read and written again keeps to the strings that its JSON schema enumerates -/

namespace Verif.Props

set_option linter.unusedSectionVars false
set_option linter.unusedSimpArgs false

variable [FloatIO]

/-- C90: what `Decode` reads from a document that uses only what the schema of version `v` declares and enumerates, has
what that schema requires, and states what has a default, `Encode` writes with only strings that the schema of version
`v` enumerates. -/
theorem reencode_listed_partial (v : Int) (j j' : Json) (b : BOM) (h : j.Proper v) (hd : decodeJSON j {} = some b)
    (he : encodeJSON b = .ok j') : j'.Listed v := by
  unfold decodeJSON at hd
  split at hd
  · obtain ⟨I, hz, hk⟩ := lst_bom (j.depth + 1) v
    have := (hk j _ b (Nat.lt_succ_self _) h hz hd).2
    unfold encodeJSON at he
    split at he
    · cases he
    · split at he
      · cases he
      · rename_i i hi
        cases he
        exact this _ hi
  · cases hd

/-- C90 on the value: if it can be written, its fields have only enumerated strings. -/
theorem decode_listed (v : Int) (j : Json) (b : BOM) (h : j.Proper v) (hd : decodeJSON j {} = some b)
    (hw : b.Writable) (hs : SpecVersion1_2 ≤ b.specVersion) : b.Listed v := by
  obtain ⟨j', he⟩ := (json_encodes_iff b).2 ⟨hs, hw⟩
  exact (encode_listed_iff b v j' he).1 (reencode_listed_partial v j j' b h hd he)

/-! ## A document that is read and written -/

theorem terse_place {p : Place} {ms : List (String × Json)} (ha : p ≠ .affectedVersions) (hf : p ≠ .patentOrFamily) :
    Terse (.place p) (.obj ms) ↔ ∃ m ∈ ms, ∃ s, p.members.lookup m.1 = some s ∧ Terse s m.2 := by
  refine ⟨fun h => ?_, fun ⟨_, hm, _, hl, h⟩ => .member hm hl h⟩
  cases h with
  | status => exact absurd rfl ha
  | family => exact absurd rfl hf
  | member hm hl h => exact ⟨_, hm, _, hl, h⟩
theorem terse_affected {ms : List (String × Json)} : Terse (.place .affectedVersions) (.obj ms) ↔
    (∀ m ∈ ms, m.1 ≠ "status") ∨ ∃ m ∈ ms, ∃ s, Place.affectedVersions.members.lookup m.1 = some s ∧ Terse s m.2 := by
  constructor
  · intro h
    cases h with
    | status h => exact .inl h
    | member hm hl h => exact .inr ⟨_, hm, _, hl, h⟩
  · rintro (h | ⟨_, hm, _, hl, h⟩)
    · exact .status h
    · exact .member hm hl h
theorem terse_list {s : Sch} {js : List Json} : Terse (.list s) (.arr js) ↔ ∃ j ∈ js, Terse s j :=
  ⟨fun h => by cases h with | elem hj h => exact ⟨_, hj, h⟩, fun ⟨_, hj, h⟩ => .elem hj h⟩
theorem terse_since {u : Int} {s : Sch} {j : Json} : Terse (.since u s) j ↔ Terse s j :=
  ⟨fun h => by cases h; assumption, .since⟩
theorem terse_str {j : Json} : ¬ Terse .str j := nofun
theorem terse_int {j : Json} : ¬ Terse .int j := nofun

/-- A component with a scope and a hash, its hashes given twice, and a vulnerability with an affected version. -/
def relistedDocument : Json :=
  .obj (documentStart "1.5" ++ [
    ("components", .arr [.obj [("type", .str "library"), ("name", .str "c"), ("scope", .str "optional"),
      ("hashes", .arr [.obj [("alg", .str "MD5"), ("content", .str "00")]]),
      ("hashes", .arr [.obj [("alg", .str "SHA-1"), ("content", .str "ab")]])]]),
    ("vulnerabilities", .arr [.obj [("affects", .arr [.obj [("ref", .str "c"),
      ("versions", .arr [.obj [("version", .str "1"), ("status", .str "affected")]])]])]])])

theorem relistedDocument_proper : relistedDocument.Proper SpecVersion1_5 := by
  refine ⟨?_, ?_, ?_, ?_⟩
  · simp [relistedDocument, documentStart, conforms_place, MemberOK, Place.members, List.lookup,
      conforms_str, Conforms.int, conforms_list, conforms_since, SpecVersion1_4, SpecVersion1_5]
  · simp [relistedDocument, documentStart, required_place, Place.Needs, Place.members, List.lookup, required_list,
      required_since, HasRequired.str, HasRequired.int, SpecVersion1_3, SpecVersion1_5]
  · simp [relistedDocument, documentStart, listed_place, Place.ListsValue, Place.Lists, Place.enums, Place.members,
      and_assoc, or_and_right, exists_or, List.lookup, listed_list, listed_since, HasListed.str, HasListed.int, SpecVersion1_0, SpecVersion1_2,
      SpecVersion1_3, SpecVersion1_4, SpecVersion1_5, SpecVersion1_6, SpecVersion1_7]
  · simp [relistedDocument, documentStart, terse_place, terse_affected, Place.members, List.lookup,
      terse_list, terse_since, terse_str, terse_int]

example : ∃ b, decodeJSON relistedDocument {} = some b ∧
    b.components.elems.map (·.hashes.elems.map (·.algorithm)) = [["SHA-1"]] ∧
    ∃ j, encodeJSON b = .ok j ∧ j.Listed SpecVersion1_5 := by
  have hd : decodeJSON relistedDocument {} = some
      { bomFormat := "CycloneDX", specVersion := 6, version := 1,
        components := .list [{ type := "library", name := "c", scope := "optional", hashes := .list [{ algorithm := "SHA-1", value := "ab" }] }],
        vulnerabilities := .list [{ affects := .list [{ ref := "c", range := .list [{ version := "1", status := "affected" }] }] }] } := rfl
  refine ⟨_, hd, rfl, ?_⟩
  exact ⟨_, rfl, reencode_listed_partial _ _ _ _ relistedDocument_proper hd rfl⟩

/-! ## What is written instead of what is missing -/

/-- An affected version without status. -/
def statuslessDocument : Json :=
  .obj (documentStart "1.5" ++ [("vulnerabilities", .arr [.obj [("affects", .arr [.obj [("ref", .str "c"),
    ("versions", .arr [.obj [("version", .str "1")]])]])]])])

/-- A patent family without a name. -/
def namelessFamilyDocument : Json :=
  .obj (documentStart "1.7" ++ [("definitions", .obj [("patents", .arr [.obj [("familyId", .str "")]])])])

/-- What is read from the first document … -/
def statuslessBOM : BOM :=
  { bomFormat := "CycloneDX", specVersion := 6, version := 1,
    vulnerabilities := .list [{ affects := .list [{ ref := "c", range := .list [{ version := "1" }] }] }] }
/-- … and from the second. -/
def namelessFamilyBOM : BOM :=
  { bomFormat := "CycloneDX", specVersion := 8, version := 1,
    definitions := some { patents := .list [{ patent := some {} }] } }

/-- C90 is false for documents that leave something to a default: from each of these, which use only what is declared
and enumerated and have what is required, is read a BOM that is written with the empty string where the same schema
enumerates others (the status of the version; the legal status of what was a patent family). -/
theorem reencode_unlisted : ∀ p ∈ [(statuslessDocument, SpecVersion1_5), (namelessFamilyDocument, SpecVersion1_7)],
    (p.1.Declared p.2 ∧ p.1.Complete p.2 ∧ p.1.Listed p.2) ∧
    ∃ b j, decodeJSON p.1 {} = some b ∧ encodeJSON b = .ok j ∧ ¬ j.Listed p.2 := by
  intro p hp
  simp only [List.mem_cons, List.not_mem_nil, or_false] at hp
  rcases hp with rfl | rfl
  · refine ⟨⟨?_, ?_, ?_⟩, ?_⟩
    · simp [statuslessDocument, documentStart, Json.Declared, conforms_place, MemberOK, Place.members, List.lookup,
        conforms_str, Conforms.int, conforms_list, conforms_since, SpecVersion1_4, SpecVersion1_5]
    · simp [statuslessDocument, documentStart, Json.Complete, required_place, Place.Needs, Place.members, List.lookup,
        required_list, required_since, HasRequired.str, HasRequired.int]
    · simp [statuslessDocument, documentStart, Json.Listed, listed_place, Place.ListsValue, Place.Lists, Place.enums,
        and_assoc, or_and_right, exists_or, Place.members, List.lookup, listed_list, listed_since, HasListed.str, HasListed.int, SpecVersion1_0,
        SpecVersion1_5]
    · have hd : decodeJSON statuslessDocument {} = some statuslessBOM := rfl
      obtain ⟨j, hj⟩ := (json_encodes_iff statuslessBOM).2 ⟨by decide, by
        simp [BOM.Writable, statuslessBOM, PSlice.elems, Vulnerability.Writable]⟩
      refine ⟨_, j, hd, hj, ?_⟩
      rw [encode_listed_iff _ _ _ hj]
      simp [BOM.Listed, statuslessBOM, PSlice.elems, Vulnerability.Listed, Affects.Listed, AffectedVersions.Listed,
        Place.Lists, Place.enums, List.lookup]
  · refine ⟨⟨?_, ?_, ?_⟩, ?_⟩
    · simp [namelessFamilyDocument, documentStart, Json.Declared, conforms_place, MemberOK, Place.members, List.lookup,
        conforms_str, Conforms.int, conforms_list, conforms_since, SpecVersion1_6, SpecVersion1_7]
    · simp [namelessFamilyDocument, documentStart, Json.Complete, required_place, Place.Needs, Place.members,
        List.lookup, required_list, required_since, HasRequired.str, HasRequired.int]
    · simp [namelessFamilyDocument, documentStart, Json.Listed, listed_place, Place.ListsValue, Place.Lists,
        and_assoc, or_and_right, exists_or, Place.enums, Place.members, List.lookup, listed_list, listed_since, HasListed.str, HasListed.int,
        SpecVersion1_0, SpecVersion1_7]
    · have hd : decodeJSON namelessFamilyDocument {} = some namelessFamilyBOM := rfl
      obtain ⟨j, hj⟩ := (json_encodes_iff namelessFamilyBOM).2 ⟨by decide, by
        simp [BOM.Writable, namelessFamilyBOM, PSlice.elems]⟩
      refine ⟨_, j, hd, hj, ?_⟩
      rw [encode_listed_iff _ _ _ hj]
      simp [BOM.Listed, namelessFamilyBOM, PSlice.elems, Definitions.Listed, PatentChoice.Listed, Patent.Listed,
        Place.Lists, Place.enums, List.lookup]

end Verif.Props
