import Verif.Json.KeepLaws
import Verif.Props.JsonRead
import Verif.Props.JsonSchema
import Verif.Props.JsonRequired

/-! # C88: a document that is read and written again stays within its JSON schema -/

namespace Verif.Props

set_option linter.unusedSectionVars false
set_option linter.unusedSimpArgs false

variable [FloatIO]

/-- C88: what `Decode` reads from a document that uses only what the schema of version `v` declares, has what that schema
requires and has no empty reference, `Encode` writes with only what the schema of version `v` declares. -/
theorem reencode_declared_partial (v : Int) (j j' : Json) (b : BOM) (h : j.Valid v) (hd : decodeJSON j {} = some b)
    (he : encodeJSON b = .ok j') : j'.Declared v := by
  unfold decodeJSON at hd
  split at hd
  · obtain ⟨I, hz, hk⟩ := keep_bom (j.depth + 1) v
    have := (hk j _ b (Nat.lt_succ_self _) h hz hd).2
    unfold encodeJSON at he
    split at he
    · cases he
    · split at he
      · cases he
      · rename_i i hi
        cases he
        exact this _ hi
  · cases hd

/-- C88 on the value: if it can be written, nothing in it is in a field that the schema does not declare. -/
theorem decode_fits (v : Int) (j : Json) (b : BOM) (h : j.Valid v) (hd : decodeJSON j {} = some b)
    (hw : b.Writable) (hs : SpecVersion1_2 ≤ b.specVersion) : b.Fits v := by
  obtain ⟨j', he⟩ := (json_encodes_iff b).2 ⟨hs, hw⟩
  exact (encode_declared_iff b v j' he).1 (reencode_declared_partial v j j' b h hd he)

/-! ## A document that is read and written -/

theorem blank_place {p : Place} {ms : List (String × Json)} :
    BlankRef (.place p) (.obj ms) ↔ ∃ m ∈ ms, ∃ s, p.members.lookup m.1 = some s ∧ BlankRef s m.2 :=
  ⟨fun h => by cases h with | member hm hl h => exact ⟨_, hm, _, hl, h⟩, fun ⟨_, hm, _, hl, h⟩ => .member hm hl h⟩
theorem blank_place_arr {p : Place} {js : List Json} : ¬ BlankRef (.place p) (.arr js) := nofun
theorem blank_place_str {p : Place} {t : String} : ¬ BlankRef (.place p) (.str t) := nofun
theorem blank_list {s : Sch} {js : List Json} : BlankRef (.list s) (.arr js) ↔ ∃ j ∈ js, BlankRef s j :=
  ⟨fun h => by cases h with | elem hj h => exact ⟨_, hj, h⟩, fun ⟨_, hj, h⟩ => .elem hj h⟩
theorem blank_since {u : Int} {s : Sch} {j : Json} : BlankRef (.since u s) j ↔ BlankRef s j :=
  ⟨fun h => by cases h; assumption, .since⟩
theorem blank_alt {s t : Sch} {j : Json} : BlankRef (.alt s t) j ↔
    (s = .str ∧ (∃ u r, t = .since u r) ∧ j = .str "") ∨ BlankRef s j ∨ BlankRef t j := by
  constructor
  · intro h
    cases h with
    | here => exact .inl ⟨rfl, ⟨_, _, rfl⟩, rfl⟩
    | left h => exact .inr (.inl h)
    | right h => exact .inr (.inr h)
  · rintro (⟨rfl, ⟨_, _, rfl⟩, rfl⟩ | h | h)
    · exact .here
    · exact .left h
    · exact .right h
theorem blank_str {j : Json} : ¬ BlankRef .str j := nofun
theorem blank_int {j : Json} : ¬ BlankRef .int j := nofun

/-- Components inside each other, a list of tools, an identity, IKEv2 algorithms by reference, what the energy of a model
is, and a lone member repeated. -/
def reencodedDocument : Json :=
  .obj (documentStart "1.6" ++ [("metadata", .obj [("tools", .arr [.obj [("name", .str "t")]])]),
    ("components", .arr []),
    ("components", .arr [.obj [("type", .str "library"), ("name", .str "acme"),
      ("cryptoProperties", .obj [("assetType", .str "protocol"), ("protocolProperties", .obj [
        ("ikev2TransformTypes", .obj [("encr", .arr [.str "aes"])])])]),
      ("components", .arr [.obj [("type", .str "file"), ("name", .str "f"),
        ("swid", .obj [("tagId", .str "s"), ("name", .str "n")])]])]])])

theorem reencodedDocument_valid : reencodedDocument.Valid SpecVersion1_6 := by
  refine ⟨?_, ?_, ?_⟩
  · simp [reencodedDocument, documentStart, conforms_place, MemberOK, Place.members, List.lookup,
      conforms_str, Conforms.int, conforms_list, conforms_since, conforms_alt, SpecVersion1_3, SpecVersion1_4,
      SpecVersion1_5, SpecVersion1_6]
  · simp [reencodedDocument, documentStart, required_place, Place.Needs, Place.members, List.lookup, required_list,
      required_since, required_alt, HasRequired.str, HasRequired.int, required_list_obj, required_place_arr,
      required_place_str, SpecVersion1_3, SpecVersion1_5, SpecVersion1_6]
  · simp [reencodedDocument, documentStart, blank_place, blank_place_arr, blank_place_str, Place.members, List.lookup,
      blank_list, blank_since, blank_alt, blank_str, blank_int]

example : ∃ b, decodeJSON reencodedDocument {} = some b ∧ b.components.elems.map (·.name) = ["acme"] ∧
    ∃ j, encodeJSON b = .ok j ∧ j.Declared SpecVersion1_6 := by
  have hd : decodeJSON reencodedDocument {} = some
      { bomFormat := "CycloneDX", specVersion := 7, version := 1,
        metadata := some { tools := some { tools := .list [{ name := "t" }] } },
        components := .list [{ type := "library", name := "acme", cryptoProperties := some { assetType := "protocol", protocolProperties := some { ikev2TransformTypes := some { encr := .list [{ bomRef := ⟨"aes"⟩ }] } } }, components := .list [{ type := "file", name := "f", swid := some { tagID := "s", name := "n" } }] }] } := rfl
  refine ⟨_, hd, rfl, ?_⟩
  exact ⟨_, rfl, reencode_declared_partial _ _ _ _ reencodedDocument_valid hd rfl⟩

/-! ## What is written outside the schema -/

/-- A patent assertion without the asserter, which the schema requires. -/
def noAsserterDocument : Json :=
  .obj (documentStart "1.7" ++ [("components", .arr [.obj [("type", .str "library"), ("name", .str "acme"),
    ("patentAssertions", .arr [.obj [("assertionType", .str "ownership")]])]])])

/-- What the training of a model needed, without the providers of energy, which the schema requires. -/
def noProvidersDocument : Json :=
  .obj (documentStart "1.6" ++ [("components", .arr [.obj [("type", .str "machine-learning-model"), ("name", .str "acme"),
    ("modelCard", .obj [("considerations", .obj [("environmentalConsiderations", .obj [("energyConsumptions", .arr [
      .obj [("activity", .str "training")]])])])])]])])

/-- An empty reference to an encryption algorithm, which the schema does not allow. -/
def emptyReferenceDocument : Json :=
  .obj (documentStart "1.6" ++ [("components", .arr [.obj [("type", .str "cryptographic-asset"), ("name", .str "ipsec"),
    ("cryptoProperties", .obj [("assetType", .str "protocol"), ("protocolProperties", .obj [
      ("ikev2TransformTypes", .obj [("encr", .arr [.str ""])])])])]])])

/-- What is read from the first document … -/
def noAsserterBOM : BOM :=
  { bomFormat := "CycloneDX", specVersion := 8, version := 1,
    components := .list [{ type := "library", name := "acme", patentAssertions := .list [{ assertionType := "ownership" }] }] }
/-- … the second … -/
def noProvidersBOM : BOM :=
  { bomFormat := "CycloneDX", specVersion := 7, version := 1,
    components := .list [{ type := "machine-learning-model", name := "acme", modelCard := some { considerations := some { environmentalConsiderations := some { energyConsumptions := .list [{ activity := "training" }] } } } }] }
/-- … and the third. -/
def emptyReferenceBOM : BOM :=
  { bomFormat := "CycloneDX", specVersion := 7, version := 1,
    components := .list [{ type := "cryptographic-asset", name := "ipsec", cryptoProperties := some { assetType := "protocol", protocolProperties := some { ikev2TransformTypes := some { encr := .list [{}] } } } }] }

/-- C88 is false for documents that only use what is declared: from each of these is read a BOM that is written with
something that the same schema does not declare (a `null`; an object for the empty reference). -/
theorem reencode_undeclared : ∀ p ∈ [(noAsserterDocument, SpecVersion1_7), (noProvidersDocument, SpecVersion1_6),
      (emptyReferenceDocument, SpecVersion1_6)], p.1.Declared p.2 ∧
    ∃ b j, decodeJSON p.1 {} = some b ∧ encodeJSON b = .ok j ∧ ¬ j.Declared p.2 := by
  have hz : F32.Finite ⟨0⟩ := by decide +kernel
  intro p hp
  simp only [List.mem_cons, List.not_mem_nil, or_false] at hp
  rcases hp with rfl | rfl | rfl
  · refine ⟨?_, ?_⟩
    · simp [Json.Declared, noAsserterDocument, documentStart, conforms_place, MemberOK, Place.members, List.lookup,
        conforms_str, Conforms.int, conforms_list, conforms_since, conforms_alt, SpecVersion1_7]
    · have hd : decodeJSON noAsserterDocument {} = some noAsserterBOM := rfl
      obtain ⟨j, hj⟩ := (json_encodes_iff noAsserterBOM).2 ⟨by decide, by
        simp [BOM.Writable, noAsserterBOM, PSlice.elems, Component.Writable, WritableComponents,
          WritablePedigreeOpt]⟩
      refine ⟨_, j, hd, hj, ?_⟩
      rw [encode_declared_iff _ _ _ hj]
      simp [BOM.Fits, noAsserterBOM, PSlice.elems, Component.Fits, PatentAssertion.Fits]
  · refine ⟨?_, ?_⟩
    · simp [Json.Declared, noProvidersDocument, documentStart, conforms_place, MemberOK, Place.members, List.lookup,
        conforms_str, Conforms.int, conforms_list, conforms_since, conforms_alt, SpecVersion1_5, SpecVersion1_6]
    · have hd : decodeJSON noProvidersDocument {} = some noProvidersBOM := rfl
      obtain ⟨j, hj⟩ := (json_encodes_iff noProvidersBOM).2 ⟨by decide, by
        simp [BOM.Writable, noProvidersBOM, PSlice.elems, Component.Writable, WritableComponents,
          WritablePedigreeOpt, MLModelCard.Writable, MLModelCardConsiderations.Writable,
          MLModelCardEnvironmentalConsiderations.Writable, MLModelEnergyConsumption.Writable,
          MLModelEnergyMeasure.Writable]
        exact hz⟩
      refine ⟨_, j, hd, hj, ?_⟩
      rw [encode_declared_iff _ _ _ hj]
      simp [BOM.Fits, noProvidersBOM, PSlice.elems, Component.Fits, MLModelCard.Fits, MLModelCardConsiderations.Fits,
          MLModelCardEnvironmentalConsiderations.Fits, MLModelEnergyConsumption.Fits]
  · refine ⟨?_, ?_⟩
    · simp [Json.Declared, emptyReferenceDocument, documentStart, conforms_place, MemberOK, Place.members, List.lookup,
        conforms_str, Conforms.int, conforms_list, conforms_since, conforms_alt, SpecVersion1_6]
    · have hd : decodeJSON emptyReferenceDocument {} = some emptyReferenceBOM := rfl
      obtain ⟨j, hj⟩ := (json_encodes_iff emptyReferenceBOM).2 ⟨by decide, by
        simp [BOM.Writable, emptyReferenceBOM, PSlice.elems, Component.Writable, WritableComponents,
          WritablePedigreeOpt, CryptoProperties.Writable]⟩
      refine ⟨_, j, hd, hj, ?_⟩
      rw [encode_declared_iff _ _ _ hj]
      simp [BOM.Fits, emptyReferenceBOM, PSlice.elems, Component.Fits, CryptoProperties.Fits,
        CryptoProtocolProperties.Fits, IKEv2TransformTypes.Fits, IKEv2Enc.Fits, SpecVersion1_6, SpecVersion1_7]

end Verif.Props
