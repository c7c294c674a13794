import Verif.Json.ReadLaws
import Verif.Json.Encoder
import Verif.Json.FloatExample

/-! # C67: which documents that the JSON schema declares are read -/

namespace Verif.Props

set_option linter.unusedSectionVars false

variable [FloatIO]

/-- C67: a document that uses only what the JSON schema of some version declares is refused by `Decode`, whatever
the variable holds, exactly if it is nested too deep or one of the values listed in `Refused` is somewhere in it. -/
theorem decode_refuses_iff (v : Int) (j : Json) (old : BOM) (h : j.Declared v) :
    decodeJSON j old = none ↔ maxNestingDepth < j.depth ∨ Refused (.place .bom) j := by
  unfold decodeJSON
  split
  · rename_i hd
    rw [read_bom (j.depth + 1) v j old (Nat.lt_succ_self _) h]
    constructor
    · exact .inr
    · rintro (h | h)
      · omega
      · exact h
  · rename_i hd
    simp only [true_iff]
    exact .inl (by omega)

/-- C67 for texts. -/
theorem decodeText_refuses_iff (v : Int) (t : List Char) (j : Json) (old : BOM) (ht : JText.parse t = some j)
    (h : j.Declared v) :
    decodeText t old = none ↔ maxNestingDepth < j.depth ∨ Refused (.place .bom) j := by
  simp only [decodeText, ht]
  exact decode_refuses_iff v j old h

/-- C67, for the documents without any of the listed values. -/
theorem decode_accepts_partial (v : Int) (j : Json) (old : BOM) (h : j.Declared v) (hd : j.depth ≤ maxNestingDepth)
    (hr : ¬ Refused (.place .bom) j) : ∃ b, decodeJSON j old = some b := by
  cases e : decodeJSON j old with
  | some b => exact ⟨b, rfl⟩
  | none =>
    rcases (decode_refuses_iff v j old h).1 e with h | h
    · omega
    · exact absurd h hr

/-! ## Documents that are refused although the schema declares them -/

/-- The members every document starts with. -/
def documentStart (version : String) : List (String × Json) :=
  [("bomFormat", .str "CycloneDX"), ("specVersion", .str version), ("version", .num (.ofInt 1))]

/-- The schema declares a string for the classification of evidence data. -/
def jsonClassifiedDocument : Json :=
  .obj (documentStart "1.6" ++ [("declarations", .obj [("evidence", .arr [.obj [("data", .arr [.obj [
    ("name", .str "test report"), ("classification", .str "public")]])]])])])

/-- The asserter of a patent assertion may be a reference. -/
def assertedDocument : Json :=
  .obj (documentStart "1.7" ++ [("components", .arr [.obj [("type", .str "library"), ("name", .str "acme"),
    ("patentAssertions", .arr [.obj [("assertionType", .str "ownership"), ("asserter", .str "organization-1")]])]])])

/-- The schema sets no upper limit for the version of a BOM. -/
def lateDocument : Json :=
  .obj [("bomFormat", .str "CycloneDX"), ("specVersion", .str "1.6"), ("version", .num (.ofInt (2 ^ 63)))]

/-- The schema declares any string for the version of the specification. -/
def futureDocument : Json := .obj (documentStart "1.8")

theorem jsonClassifiedDocument_declared : jsonClassifiedDocument.Declared SpecVersion1_6 := by
  simp [Json.Declared, jsonClassifiedDocument, documentStart, conforms_place, MemberOK, Place.members, List.lookup,
    conforms_str, Conforms.int, conforms_list, conforms_since]

theorem assertedDocument_declared : assertedDocument.Declared SpecVersion1_7 := by
  simp [Json.Declared, assertedDocument, documentStart, conforms_place, MemberOK, Place.members, List.lookup,
    conforms_str, Conforms.int, conforms_list, conforms_since, conforms_alt]

theorem lateDocument_declared : lateDocument.Declared SpecVersion1_6 := by
  simp [Json.Declared, lateDocument, conforms_place, MemberOK, Place.members, List.lookup, conforms_str, Conforms.int]

theorem futureDocument_declared : futureDocument.Declared SpecVersion1_7 := by
  simp [Json.Declared, futureDocument, documentStart, conforms_place, MemberOK, Place.members, List.lookup,
    conforms_str, Conforms.int]

/-- C67 does not hold for all documents: these four, and all with such values, are refused. -/
theorem declared_refused (old : BOM) :
    decodeJSON jsonClassifiedDocument old = none ∧ decodeJSON assertedDocument old = none ∧
    decodeJSON lateDocument old = none ∧ decodeJSON futureDocument old = none := by
  refine ⟨(decode_refuses_iff _ _ old jsonClassifiedDocument_declared).2 (.inr ?_),
    (decode_refuses_iff _ _ old assertedDocument_declared).2 (.inr ?_),
    (decode_refuses_iff _ _ old lateDocument_declared).2 (.inr ?_),
    (decode_refuses_iff _ _ old futureDocument_declared).2 (.inr ?_)⟩
  · refine .member (m := ("declarations", _)) (by simp [documentStart]; rfl) rfl (.since ?_)
    refine .member (m := ("evidence", _)) List.mem_cons_self rfl (.elem List.mem_cons_self ?_)
    refine .member (m := ("data", _)) List.mem_cons_self rfl (.elem List.mem_cons_self ?_)
    exact .odd (m := ("classification", _)) (List.mem_cons_of_mem _ List.mem_cons_self) rfl trivial
  · refine .member (m := ("components", _)) (.tail _ (.tail _ (.tail _ (.head _)))) rfl (.elem List.mem_cons_self ?_)
    refine .member (m := ("patentAssertions", _)) (.tail _ (.tail _ (.head _))) rfl (.since (.elem List.mem_cons_self ?_))
    exact .odd (m := ("asserter", _)) (.tail _ (.head _)) rfl ⟨_, rfl⟩
  · exact .member (m := ("version", _)) (by simp; rfl) rfl (.int _ (by decide))
  · exact .odd (m := ("specVersion", _)) (by simp [documentStart]; rfl) rfl ⟨_, rfl, by decide⟩

/-- A document that is read: nested components, a list of tools, a reference of an environment variable. -/
def readDocument : Json :=
  .obj (documentStart "1.7" ++ [("metadata", .obj [("tools", .arr [.obj [("name", .str "t")]])]),
    ("components", .arr [.obj [("type", .str "library"), ("name", .str "acme"), ("isExternal", .bool true),
      ("evidence", .obj [("identity", .obj [("field", .str "purl")])]),
      ("components", .arr [.obj [("type", .str "file"), ("name", .str "f"),
        ("swid", .obj [("tagId", .str "s"), ("name", .str "n"), ("tagVersion", .num (.ofInt (-3)))])]])]])])

theorem readDocument_declared : readDocument.Declared SpecVersion1_7 := by
  simp [Json.Declared, readDocument, documentStart, conforms_place, MemberOK, Place.members, List.lookup,
    conforms_str, Conforms.int, conforms_bool, conforms_list, conforms_since, conforms_alt, SpecVersion1_3, SpecVersion1_5, SpecVersion1_7]

example : ∃ b, decodeJSON readDocument {} = some b ∧ b.specVersion = SpecVersion1_7 ∧
    b.components.elems.map (·.name) = ["acme"] := ⟨_, rfl, rfl, rfl⟩

example : ¬ Refused (.place .bom) readDocument := by
  intro h
  have h := (decode_refuses_iff SpecVersion1_7 readDocument {} readDocument_declared).2 (.inr h)
  cases h

end Verif.Props
