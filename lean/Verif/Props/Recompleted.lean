import Verif.Json.FullLaws
import Verif.Props.Reencoded

/-! # C89: a document that is read and written again keeps what its JSON schema requires -/

namespace Verif.Props

set_option linter.unusedSectionVars false
set_option linter.unusedSimpArgs false

variable [FloatIO]

/-- C89: what `Decode` reads from a document that uses only what the schema of version `v` declares and has what that
schema requires, none of it empty, `Encode` writes with all that the schema of version `v` requires, and with nothing
that it does not declare. -/
theorem reencode_required_partial (v : Int) (j j' : Json) (b : BOM) (h : j.Ample v) (hd : decodeJSON j {} = some b)
    (he : encodeJSON b = .ok j') : j'.Complete v ∧ j'.Declared v := by
  refine ⟨?_, reencode_declared_partial v j j' b h.sound hd he⟩
  unfold decodeJSON at hd
  split at hd
  · obtain ⟨I, hz, hk⟩ := full_bom (j.depth + 1) v
    have := (hk j _ b (Nat.lt_succ_self _) h hz hd).2
    unfold encodeJSON at he
    split at he
    · cases he
    · split at he
      · cases he
      · rename_i i hi
        cases he
        exact this _ hi
  · cases hd

/-- C89 on the value: if it can be written, it has a value for all that the schema requires. -/
theorem decode_complete (v : Int) (j : Json) (b : BOM) (h : j.Ample v) (hd : decodeJSON j {} = some b)
    (hw : b.Writable) (hs : SpecVersion1_2 ≤ b.specVersion) : b.Complete v := by
  obtain ⟨j', he⟩ := (json_encodes_iff b).2 ⟨hs, hw⟩
  exact (encode_required_iff b v j' he).1 (reencode_required_partial v j j' b h hd he).1

/-! ## A document that is read and written -/

theorem scant_place {p : Place} {ms : List (String × Json)} (hs : p ≠ .signer) (hc : p ≠ .certificateExtension) :
    Scant (.place p) (.obj ms) ↔ ∃ m ∈ ms, ∃ s, p.members.lookup m.1 = some s ∧ Scant s m.2 := by
  refine ⟨fun h => ?_, fun ⟨_, hm, _, hl, h⟩ => .member hm hl h⟩
  cases h with
  | keyless => exact absurd rfl hs
  | mixed => exact absurd rfl hc
  | member hm hl h => exact ⟨_, hm, _, hl, h⟩
theorem scant_signer {ms : List (String × Json)} : Scant (.place .signer) (.obj ms) ↔
    (∀ m ∈ ms, m.1 ≠ "publicKey") ∨ ∃ m ∈ ms, ∃ s, Place.signer.members.lookup m.1 = some s ∧ Scant s m.2 := by
  constructor
  · intro h
    cases h with
    | keyless h => exact .inl h
    | member hm hl h => exact .inr ⟨_, hm, _, hl, h⟩
  · rintro (h | ⟨_, hm, _, hl, h⟩)
    · exact .keyless h
    · exact .member hm hl h
theorem scant_list {s : Sch} {js : List Json} : Scant (.list s) (.arr js) ↔ ∃ j ∈ js, Scant s j :=
  ⟨fun h => by cases h with | elem hj h => exact ⟨_, hj, h⟩, fun ⟨_, hj, h⟩ => .elem hj h⟩
theorem scant_since {u : Int} {s : Sch} {j : Json} : Scant (.since u s) j ↔ Scant s j :=
  ⟨fun h => by cases h; assumption, .since⟩
theorem scant_str {t : String} : Scant .str (.str t) ↔ t = "" :=
  ⟨fun h => by cases h; rfl, fun h => h ▸ .blank⟩
theorem scant_int {j : Json} : ¬ Scant .int j := nofun

/-- An annotation, a repeated member with another one, and a signature with a signer and their key. -/
def recompletedDocument : Json :=
  .obj (documentStart "1.5" ++ [("annotations", .arr []),
    ("annotations", .arr [.obj [("subjects", .arr [.str "a"]), ("annotator", .obj [("organization", .obj [("name", .str "o")])]),
      ("timestamp", .str "2024-01-01T00:00:00Z"), ("text", .str "checked")]]),
    ("signature", .obj [("signers", .arr [.obj [("algorithm", .str "ES256"), ("value", .str "s"),
      ("publicKey", .obj [("kty", .str "EC")])]])])])

theorem recompletedDocument_ample : recompletedDocument.Ample SpecVersion1_5 := by
  refine ⟨?_, ?_, ?_⟩
  · simp [recompletedDocument, documentStart, conforms_place, MemberOK, Place.members, List.lookup,
      conforms_str, Conforms.int, conforms_list, conforms_since, SpecVersion1_4, SpecVersion1_5]
  · simp [recompletedDocument, documentStart, required_place, Place.Needs, Place.members, List.lookup, required_list,
      required_since, HasRequired.str, HasRequired.int]
  · simp [recompletedDocument, documentStart, scant_place, scant_signer, Place.members, List.lookup,
      scant_list, scant_since, scant_str, scant_int]

example : ∃ b, decodeJSON recompletedDocument {} = some b ∧ b.annotations.elems.map (·.text) = ["checked"] ∧
    ∃ j, encodeJSON b = .ok j ∧ j.Complete SpecVersion1_5 := by
  have hd : decodeJSON recompletedDocument {} = some
      { bomFormat := "CycloneDX", specVersion := 6, version := 1,
        annotations := .list [{ subjects := .list [⟨"a"⟩], annotator := some { organization := some { name := "o" } }, timestamp := "2024-01-01T00:00:00Z", text := "checked" }],
        signature := some { signers := .list [{ algorithm := "ES256", value := "s", publicKey := { kty := "EC" } }] } } := rfl
  refine ⟨_, hd, rfl, ?_⟩
  exact ⟨_, rfl, (reencode_required_partial _ _ _ _ recompletedDocument_ample hd rfl).1⟩

/-! ## What is lost -/

/-- An annotation whose text is empty. -/
def emptyTextDocument : Json :=
  .obj (documentStart "1.5" ++ [("annotations", .arr [.obj [("subjects", .arr [.str "a"]),
    ("annotator", .obj [("organization", .obj [("name", .str "o")])]), ("timestamp", .str "2024-01-01T00:00:00Z"),
    ("text", .str "")]])])

/-- A signature whose signer has no public key. -/
def keylessDocument : Json :=
  .obj (documentStart "1.5" ++ [("signature", .obj [("signers", .arr [.obj [("algorithm", .str "HS256"),
    ("value", .str "s")]])])])

/-- A certificate extension of both kinds. -/
def mixedExtensionDocument : Json :=
  .obj (documentStart "1.7" ++ [("components", .arr [.obj [("type", .str "cryptographic-asset"), ("name", .str "c"),
    ("cryptoProperties", .obj [("assetType", .str "certificate"), ("certificateProperties", .obj [
      ("certificateExtensions", .arr [.obj [("commonExtensionName", .str "keyUsage"),
        ("customExtensionName", .str "x")]])])])]])])

/-- What is read from the first document … -/
def emptyTextBOM : BOM :=
  { bomFormat := "CycloneDX", specVersion := 6, version := 1,
    annotations := .list [{ subjects := .list [⟨"a"⟩], annotator := some { organization := some { name := "o" } }, timestamp := "2024-01-01T00:00:00Z" }] }
/-- … the second … -/
def unkeyedBOM : BOM :=
  { bomFormat := "CycloneDX", specVersion := 6, version := 1,
    signature := some { signers := .list [{ algorithm := "HS256", value := "s" }] } }
/-- … and the third. -/
def mixedExtensionBOM : BOM :=
  { bomFormat := "CycloneDX", specVersion := 8, version := 1,
    components := .list [{ type := "cryptographic-asset", name := "c", cryptoProperties := some { assetType := "certificate", certificateProperties := some { certificateExtensions := .list [{ common := some { name := "keyUsage" } }] } } }] }

/-- C89 is false for documents that have all that is required: from each of these is read a BOM that is written without
something that the same schema requires (the text of the annotation; the kind of the key, which is not there and
nevertheless written; the value of the extension). -/
theorem reencode_incomplete : ∀ p ∈ [(emptyTextDocument, SpecVersion1_5), (keylessDocument, SpecVersion1_5),
      (mixedExtensionDocument, SpecVersion1_7)], p.1.Valid p.2 ∧
    ∃ b j, decodeJSON p.1 {} = some b ∧ encodeJSON b = .ok j ∧ ¬ j.Complete p.2 := by
  intro p hp
  simp only [List.mem_cons, List.not_mem_nil, or_false] at hp
  rcases hp with rfl | rfl | rfl
  · refine ⟨⟨?_, ?_, ?_⟩, ?_⟩
    · simp [emptyTextDocument, documentStart, conforms_place, MemberOK, Place.members, List.lookup,
        conforms_str, Conforms.int, conforms_list, conforms_since, SpecVersion1_5]
    · simp [emptyTextDocument, documentStart, required_place, Place.Needs, Place.members, List.lookup, required_list,
        required_since, HasRequired.str, HasRequired.int]
    · simp [emptyTextDocument, documentStart, blank_place, Place.members, List.lookup, blank_list, blank_since,
        blank_str, blank_int]
    · have hd : decodeJSON emptyTextDocument {} = some emptyTextBOM := rfl
      obtain ⟨j, hj⟩ := (json_encodes_iff emptyTextBOM).2 ⟨by decide, by
        simp [BOM.Writable, emptyTextBOM, PSlice.elems, Annotation.Writable, Annotator.Writable]⟩
      refine ⟨_, j, hd, hj, ?_⟩
      rw [encode_required_iff _ _ _ hj]
      simp [BOM.Complete, emptyTextBOM, PSlice.elems, Annotation.Complete]
  · refine ⟨⟨?_, ?_, ?_⟩, ?_⟩
    · simp [keylessDocument, documentStart, conforms_place, MemberOK, Place.members, List.lookup,
        conforms_str, Conforms.int, conforms_list, conforms_since, SpecVersion1_4, SpecVersion1_5]
    · simp [keylessDocument, documentStart, required_place, Place.Needs, Place.members, List.lookup, required_list,
        required_since, HasRequired.str, HasRequired.int]
    · simp [keylessDocument, documentStart, blank_place, Place.members, List.lookup, blank_list, blank_since,
        blank_str, blank_int]
    · have hd : decodeJSON keylessDocument {} = some unkeyedBOM := rfl
      obtain ⟨j, hj⟩ := (json_encodes_iff unkeyedBOM).2 ⟨by decide, by
        simp [BOM.Writable, unkeyedBOM, PSlice.elems]⟩
      refine ⟨_, j, hd, hj, ?_⟩
      rw [encode_required_iff _ _ _ hj]
      simp [BOM.Complete, unkeyedBOM, PSlice.elems, JSFSignature.Complete, JSFSigner.Complete, JSFPublicKey.Complete]
  · refine ⟨⟨?_, ?_, ?_⟩, ?_⟩
    · simp [mixedExtensionDocument, documentStart, conforms_place, MemberOK, Place.members, List.lookup,
        conforms_str, Conforms.int, conforms_list, conforms_since, SpecVersion1_6, SpecVersion1_7]
    · simp [mixedExtensionDocument, documentStart, required_place, Place.Needs, Place.members, List.lookup,
        required_list, required_since, HasRequired.str, HasRequired.int, SpecVersion1_3, SpecVersion1_5, SpecVersion1_7]
    · simp [mixedExtensionDocument, documentStart, blank_place, Place.members, List.lookup, blank_list, blank_since,
        blank_str, blank_int]
    · have hd : decodeJSON mixedExtensionDocument {} = some mixedExtensionBOM := rfl
      obtain ⟨j, hj⟩ := (json_encodes_iff mixedExtensionBOM).2 ⟨by decide, by
        simp [BOM.Writable, mixedExtensionBOM, PSlice.elems, Component.Writable, WritableComponents,
          WritablePedigreeOpt, CryptoProperties.Writable, CertificateProperties.Writable, CertificateExtension.Writable]⟩
      refine ⟨_, j, hd, hj, ?_⟩
      rw [encode_required_iff _ _ _ hj]
      simp [BOM.Complete, mixedExtensionBOM, PSlice.elems, Component.Complete, CryptoProperties.Complete,
        CertificateProperties.Complete, CertificateExtension.Complete, CommonCertificateExtension.Complete]

end Verif.Props
