import Verif.Json.CarriedLaws
import Verif.Props.Json
import Verif.Props.JsonMembers
import Verif.Props.JsonRead

/-! # C68: what is read from a JSON document is written again -/

namespace Verif.Props

set_option linter.unusedSectionVars false

variable [FloatIO]

/-- C68: a document that uses only what the JSON schema of some version declares, and has no member twice, is read
into a new BOM and written again by `Encode`: everything it says is in the new document, at the same place, and the
new document says nothing else.  Empty strings, `false` and `0` may be missing; the members listed in `Hidden` are
lost. -/
theorem decode_encode_carried_partial (v : Int) (j j' : Json) (b : BOM) (h : j.Declared v) (hd : j.Distinct)
    (hr : decodeJSON j {} = some b) (hw : encodeJSON b = .ok j') : Carried (.place .bom) j j' := by
  unfold decodeJSON at hr
  split at hr
  · unfold encodeJSON at hw
    split at hw
    · cases hw
    · rename_i hv
      split at hw
      · cases hw
      · rename_i j'' hj
        cases hw
        have hp := plain_version (dec_plain hd hr)
        have hv : SpecVersion1_0 ≤ b.specVersion ∧ b.specVersion ≤ SpecVersion1_7 := by
          simp only [SpecVersion1_0, SpecVersion1_2, SpecVersion1_7] at hv hp ⊢
          omega
        rw [bom_enc_strict hv] at hj
        rw [bom_dec_strict] at hr
        exact car_bom (j.depth + 1) v j b _ (Nat.lt_succ_self _) h hd hr hj
  · cases hr

/-! ## A document that comes out as it is -/

/-- C68 on a document with nested components, environment variables and alternatives. -/
def carriedDocument : Json :=
  .obj (documentStart "1.7" ++ [("metadata", .obj [("tools", .arr [.obj [("name", .str "t")]])]),
    ("components", .arr [.obj [("type", .str "library"), ("name", .str "acme"), ("isExternal", .bool false),
      ("description", .str ""),
      ("evidence", .obj [("identity", .obj [("field", .str "purl")])]),
      ("components", .arr [.obj [("type", .str "file"), ("name", .str "f"),
        ("swid", .obj [("tagId", .str "s"), ("name", .str "n"), ("tagVersion", .num (.ofInt (-3)))])]])]])])

theorem carriedDocument_declared : carriedDocument.Declared SpecVersion1_7 := by
  simp [Json.Declared, carriedDocument, documentStart, conforms_place, MemberOK, Place.members, List.lookup,
    conforms_str, Conforms.int, conforms_bool, conforms_list, conforms_since, conforms_alt, SpecVersion1_3, SpecVersion1_5, SpecVersion1_7]

/-- What `Decode` makes of `carriedDocument`. -/
def carriedBOM : BOM :=
  { bomFormat := "CycloneDX", specVersion := SpecVersion1_7, version := 1,
    metadata := some { tools := some { tools := .list [{ name := "t" }] } },
    components := .list [
      { type := "library", name := "acme", isExternal := some false,
        evidence := some { identity := some { identity := some { field := "purl" } } },
        components := .list [
          { type := "file", name := "f", swid := some { tagID := "s", name := "n", tagVersion := some (-3) } }] }] }

theorem carriedDocument_dec : decodeJSON carriedDocument {} = some carriedBOM := rfl

set_option maxRecDepth 10000 in
/-- The empty description is not written. -/
theorem carriedBOM_enc : encodeJSON carriedBOM = .ok (.obj (documentStart "1.7" ++
    [("metadata", .obj [("tools", .arr [.obj [("name", .str "t")]])]),
    ("components", .arr [.obj [("type", .str "library"), ("name", .str "acme"),
      ("components", .arr [.obj [("type", .str "file"), ("name", .str "f"),
        ("swid", .obj [("tagId", .str "s"), ("name", .str "n"), ("tagVersion", .num (.ofInt (-3)))])]]),
      ("evidence", .obj [("identity", .obj [("field", .str "purl")])]),
      ("isExternal", .bool false)]])])) := rfl

/-! ## What is lost -/

theorem decMembers_unknown {β : Type} (F : JFields β) : ∀ (ms : List (String × Json)) (b : β),
    (∀ m ∈ ms, fieldFor F.names m.1 = none) → F.decMembers ms b = some b
  | [], _, _ => rfl
  | m :: ms, b, h => by
    rw [decMembers_cons, set_unknown F b (h m List.mem_cons_self), Option.bind_some,
      decMembers_unknown F ms b fun x hx => h x (List.mem_cons_of_mem _ hx)]

/-- A signature by a single signer is lost: whatever the values of its members are, nothing of it is kept. -/
theorem single_signature_lost (ms : List (String × Json)) (s : JSFSignature)
    (h : ∀ m ∈ ms, m.1 ∈ ["algorithm", "keyId", "publicKey", "certificatePath", "excludes", "value"]) :
    J.jsfSignature.dec (.obj ms) s = some s := by
  simp only [J.jsfSignature, JCodec.struct]
  rw [decMembers_unknown]
  · rfl
  · intro m hm
    have := h m hm
    simp only [List.mem_cons, List.not_mem_nil, or_false] at this
    rcases this with e | e | e | e | e | e <;> rw [e] <;> decide +kernel

/-- The properties of a model card are lost. -/
theorem modelCard_properties_lost (j : Json) (c : MLModelCard) :
    J.mlModelCard.dec (.obj [("properties", j)]) c = some c := by
  simp only [J.mlModelCard, JCodec.struct]
  rw [decMembers_unknown]
  · rfl
  · intro m hm
    rw [List.mem_singleton] at hm
    rw [hm]
    exact (show fieldFor ["bom-ref", "modelParameters", "quantitativeAnalysis", "considerations"] "properties" = none by
      decide +kernel)

/-- An asserter that is an organization or a person, as the schema declares it, is lost. -/
theorem asserter_lost (v : Int) (j : Json) (a : AsserterChoice) (h : Conforms v (.place .asserter) j) :
    J.asserterChoice.dec j a = some a := by
  obtain ⟨ms, rfl⟩ := conforms_place_obj h
  simp [J.asserterChoice, rawMember_undeclared h (k := "organization") (by decide +kernel),
    rawMember_undeclared h (k := "individual") (by decide +kernel), rawMember_undeclared h (k := "ref") (by decide +kernel)]

/-- An assignee of a patent, as the schema declares it, is lost. -/
theorem patentAssignee_lost (v : Int) (j : Json) (a : OrganizationalEntityOrContact)
    (h : Conforms v (.place .patentAssignee) j) : J.organizationalEntityOrContact.dec j a = some a := by
  obtain ⟨ms, rfl⟩ := conforms_place_obj h
  rw [conforms_place] at h
  simp only [J.organizationalEntityOrContact, JCodec.struct]
  rw [decMembers_unknown]
  · rfl
  · intro m hm
    obtain ⟨s, hs, _⟩ := h m hm
    have : (Place.patentAssignee.members.all fun m => (fieldFor ["organization", "individual"] m.1).isNone) = true := by
      decide +kernel
    rw [List.all_eq_true] at this
    exact Option.isNone_iff_eq_none.1 (this _ (lookup_mem hs))

/-- A signed BOM. -/
def signedDocument (ms : List (String × Json)) : Json := .obj (documentStart "1.6" ++ [("signature", .obj ms)])

theorem signedDocument_declared (a t : String) :
    (signedDocument [("algorithm", .str a), ("value", .str t)]).Declared SpecVersion1_6 := by
  simp [Json.Declared, signedDocument, documentStart, conforms_place, MemberOK, Place.members, List.lookup,
    conforms_str, Conforms.int, conforms_since, SpecVersion1_4, SpecVersion1_6]

/-- What `Decode` makes of a signed BOM. -/
def unsignedBOM : BOM :=
  { bomFormat := "CycloneDX", specVersion := SpecVersion1_6, version := 1, signature := some {} }

/-- C68 does not hold for all members: the signature of a BOM is read as nothing, whatever it is … -/
theorem signature_lost (ms : List (String × Json)) (hd : (signedDocument ms).depth ≤ maxNestingDepth)
    (h : ∀ m ∈ ms, m.1 ∈ ["algorithm", "keyId", "publicKey", "certificatePath", "excludes", "value"]) :
    decodeJSON (signedDocument ms) {} = some unsignedBOM := by
  have ho := (json_members_bom).1
  have hm := (json_members_bom).2.2.2.2.2.2.2.2.2.2.2.2.2.2.2.2.2.2.2
  unfold decodeJSON
  rw [if_pos hd]
  unfold signedDocument documentStart
  simp only [List.cons_append, List.nil_append]
  rw [ho.read, show J.bom.dec (.obj [("bomFormat", .str "CycloneDX")]) {} = some { bomFormat := "CycloneDX" } from rfl,
    Option.bind_some, ho.read,
    show J.bom.dec (.obj [("specVersion", .str "1.6")]) { bomFormat := "CycloneDX" } =
      some { bomFormat := "CycloneDX", specVersion := SpecVersion1_6 } from rfl,
    Option.bind_some, ho.read,
    show J.bom.dec (.obj [("version", .num (.ofInt 1))]) { bomFormat := "CycloneDX", specVersion := SpecVersion1_6 } =
      some { bomFormat := "CycloneDX", specVersion := SpecVersion1_6, version := 1 } from rfl,
    Option.bind_some, hm.read]
  simp only [JCodec.option]
  rw [show J.jsfSignature.zero = {} from rfl]
  simp [single_signature_lost ms {} h, unsignedBOM]

set_option maxRecDepth 10000 in
/-- … and written as `{}`. -/
theorem unsignedBOM_enc : encodeJSON unsignedBOM = .ok (.obj (documentStart "1.6" ++ [("signature", .obj [])])) := rfl

end Verif.Props
