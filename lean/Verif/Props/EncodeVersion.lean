import Verif.Json.EncodeVersion
import Verif.Json.FloatExample
import Verif.Proofs.CanonFixed
import Verif.Props.Json
import Verif.Props.JsonChoice
import Verif.Props.Steps

/-! # C29, C31, C32, C43, C44: the deep copy and `EncodeVersion` -/

namespace Verif.Props

set_option linter.unusedSectionVars false

/-! ## C29 -/

/-- C29: exactly the BOMs without pointers to zero values and without empty lists (at any depth) are equal to
their copy. -/
theorem copy_eq_iff (b : BOM) : b.copy = b ↔ b.Copyable := BOM.copy_eq b

/-- C29: the copy always is such a BOM, so that copying again changes nothing. -/
theorem copy_copyable (b : BOM) : b.copy.Copyable := (BOM.copy_eq _).1 (BOM.copy_idem b)

section
variable [FloatIO]

/-- C29, for BOMs without pointers to zero values and without empty lists: the copy has the same encoding. -/
theorem copy_same_encoding_partial (b : BOM) (h : b.Copyable) : encodeJSON b.copy = encodeJSON b := by
  rw [(BOM.copy_eq b).2 h]

/-- A BOM that is not its own copy: an unmodified component with an empty list of components. -/
def emptyList : BOM :=
  { bomFormat := "CycloneDX", specVersion := 8, version := 1,
    components := .list [{ type := "library", name := "acme", modified := some false, components := .list [] }] }

set_option maxRecDepth 10000 in
/-- C29 is false for other BOMs: `"modified": false` and `"components": []` are missing in the encoding of
the copy. -/
theorem copy_same_encoding_fails :
    encodeJSON emptyList = .ok (.obj [("bomFormat", .str "CycloneDX"), ("specVersion", .str "1.7"),
      ("version", .num (.ofInt 1)), ("components", .arr [.obj [("type", .str "library"), ("name", .str "acme"),
        ("modified", .bool false), ("components", .arr [])]])]) ∧
    encodeJSON emptyList.copy = .ok (.obj [("bomFormat", .str "CycloneDX"), ("specVersion", .str "1.7"),
      ("version", .num (.ofInt 1)), ("components", .arr [.obj [("type", .str "library"), ("name", .str "acme")]])]) :=
  ⟨rfl, rfl⟩

/-- A component nested in the next one. -/
def usualInner : Component :=
  { type := "file", name := "inner", version := "1", hashes := .list [⟨"MD5", "00"⟩] }

/-- A component with a license and a nested component. -/
def usualComponent : Component :=
  { type := "library", name := "acme", modified := some true, licenses := .list [{ license := some { id := "MIT" } }], components := .list [usualInner] }

/-- A BOM that is its own copy, with tools and nested components. -/
def usualBOM : BOM :=
  { jsonSchema := "http://cyclonedx.org/schema/bom-1.7.schema.json", bomFormat := "CycloneDX", specVersion := 8, version := 1,
    metadata := some { tools := some { components := .list [{ type := "application", name := "scanner", version := "2" }] } },
    components := .list [usualComponent] }

set_option maxRecDepth 10000 in
example : usualBOM.Copyable := (copy_eq_iff usualBOM).1 rfl

/-! ## C32: what any BOM is decoded to again -/

/-- C32, for BOMs that are not plain: what the JSON written for a BOM decodes to is its canonical form, if its
integers are Go integers and its choices have the members by which they are recognised. -/
theorem json_decodes_canonical (b : BOM) (j : Json) (hr : b.Regular) (hv : b.specVersion ≤ SpecVersion1_7)
    (h : encodeJSON b = .ok j) (hdepth : j.depth ≤ maxNestingDepth) : decodeJSON j {} = some b.canonical := by
  obtain ⟨h2, he⟩ := encodeJSON_ok h
  have hv' : SpecVersion1_0 ≤ b.specVersion ∧ b.specVersion ≤ SpecVersion1_7 := by
    simp only [SpecVersion1_0, SpecVersion1_2] at *; omega
  rw [bom_enc_strict hv'] at he
  have hg : J.specVersionStrict.good b.specVersion := by
    have h0 : (0 : Int) ≤ b.specVersion := by simp only [SpecVersion1_0] at *; omega
    exact ⟨h0, hv⟩
  have := JLawful.round (c := J.bomWith J.specVersionStrict) b j (good_bom hr hg) he
  rw [norm_bom] at this
  simp only [decodeJSON, hdepth, if_true]
  rw [bom_dec_strict]
  exact this

/-- C29: the copy of a BOM can have the same encoding only if the two differ in nothing but what JSON does not
show. -/
theorem copy_same_encoding_only_if (b : BOM) (j : Json) (hr : b.Regular) (hv : b.specVersion ≤ SpecVersion1_7)
    (h : encodeJSON b = .ok j) (hdepth : j.depth ≤ maxNestingDepth) (hc : encodeJSON b.copy = .ok j) :
    b.copy.canonical = b.canonical := by
  have h1 := json_decodes_canonical b j hr hv h hdepth
  have h2 := json_decodes_canonical b.copy j (BOM.copy_regular hr) hv hc hdepth
  rw [h1, Option.some.injEq] at h2
  exact h2.symm

/-! ## C31 -/

/-- C31: what `EncodeVersion` writes is a JSON object whose `specVersion` member names the version asked for. -/
theorem encodeVersion_reports (b : BOM) (v : Int) (j : Json) (h : encodeVersionJSON b v = .ok j) :
    SpecVersion1_2 ≤ v ∧ ∃ ms, j = .obj ms ∧ ("specVersion", .str (SpecVersion.str v)) ∈ ms := by
  obtain ⟨h2, he⟩ := encodeJSON_ok h
  have := bom_members he
  simp only [copyAndConvert, convert_specVersion] at h2 this
  exact ⟨h2, this⟩

/-- C31, for BOMs equal to their copy: `EncodeVersion` is `Encode` of the converted BOM. -/
theorem encodeVersion_eq_encode_convert (b : BOM) (v : Int) (h : b.Copyable) :
    encodeVersionJSON b v = encodeJSON (convert v b) := by
  rw [encodeVersionJSON, copyAndConvert, (BOM.copy_eq b).2 h]

/-- C31: for a BOM of version 1.7 with the version stamps that `NewBOM` sets, `EncodeVersion` to 1.7 is `Encode`,
if the BOM is equal to its copy and its enumeration values are those of the specification. -/
theorem encodeVersion_latest (b : BOM) (h : b.Copyable) (hl : LatestDocument b)
    (h1 : b.specVersion = SpecVersion1_7) (h2 : b.jsonSchema = "http://cyclonedx.org/schema/bom-1.7.schema.json") :
    encodeVersionJSON b SpecVersion1_7 = encodeJSON b := by
  rw [encodeVersion_eq_encode_convert b _ h, convert_latest_partial b hl]
  cases b
  simp only at h1 h2
  subst h1 h2
  rfl

/-- C31: encoding in a version depends on nothing but the copy. -/
theorem encodeVersion_copy (b : BOM) (v : Int) : encodeVersionJSON b.copy v = encodeVersionJSON b v := by
  rw [encodeVersionJSON, encodeVersionJSON, copyAndConvert, copyAndConvert, BOM.copy_idem]

/-- C30 for `EncodeVersion`: exactly the versions below 1.2 are refused as unsupported, whatever the BOM. -/
theorem encodeVersion_unsupported_iff (b : BOM) (v : Int) :
    encodeVersionJSON b v = .error .unsupportedVersion ↔ v < SpecVersion1_2 := by
  rw [encodeVersionJSON, json_unsupported_iff, copyAndConvert, convert_specVersion]

/-! ## C44 -/

/-- C44, for BOMs in which every choice of tools has an entry: what can be written in some version, can be
written in every version that JSON supports. -/
theorem encodeVersion_total_partial (b : BOM) (v : Int) (j : Json) (h : encodeJSON b = .ok j)
    (ht : b.ToolsNonEmpty) (hv : SpecVersion1_2 ≤ v) : ∃ j', encodeVersionJSON b v = .ok j' := by
  have hw := ((json_encodes_iff b).1 ⟨j, h⟩).2
  refine (json_encodes_iff _).2 ⟨?_, ?_⟩
  · rw [copyAndConvert, convert_specVersion]; exact hv
  · exact convert_writable v (BOM.copy_toolsNonEmpty ht) (BOM.copy_writable ht hw)

/-- A BOM with an empty list of tools. -/
def noTools : BOM :=
  { bomFormat := "CycloneDX", specVersion := 8, version := 1,
    metadata := some { tools := some { components := .list [] } } }

set_option maxRecDepth 10000 in
/-- C44 is false for an empty choice of tools: `"tools": {"components": []}` is decoded and can be written by
`Encode`, but by `EncodeVersion` in no version, not even its own. -/
theorem encodeVersion_fails_on_empty_tools :
    (∃ j, encodeJSON noTools = .ok j ∧ decodeJSON j {} = some noTools) ∧
    ∀ v j, encodeVersionJSON noTools v ≠ .ok j := by
  refine ⟨⟨.obj [("bomFormat", .str "CycloneDX"), ("specVersion", .str "1.7"), ("version", .num (.ofInt 1)),
    ("metadata", .obj [("tools", .obj [("components", .arr [])])])], rfl, rfl⟩, ?_⟩
  intro v j h
  obtain ⟨h2, hw⟩ := (json_encodes_iff _).1 ⟨j, h⟩
  have h12 : ¬ v < SpecVersion1_2 := by
    simp only [copyAndConvert, convert_specVersion] at h2; omega
  have hm := hw.1
  simp only [copyAndConvert, convert_metadata, if_neg h12, noTools, BOM.copy, Metadata.copy, ToolsChoice.copy,
    PSlice.copyWith, Option.map_some, Option.mem_some_iff, forall_eq', Metadata.Writable,
    convertMetadata_tools] at hm
  have hm := hm.1.1
  by_cases h5 : v < SpecVersion1_5
  · rw [convertTools_old h5] at hm
    simp [toolsToLegacy, PSlice.elems] at hm
  · rw [convertTools_new h5] at hm
    simp at hm

/-! ## C43 -/

/-- C43: what `EncodeVersion` writes decodes to the canonical form of the converted copy. -/
theorem encodeVersion_decodes (b : BOM) (v : Int) (j : Json) (hr : b.Regular) (hv : v ≤ SpecVersion1_7)
    (h : encodeVersionJSON b v = .ok j) (hdepth : j.depth ≤ maxNestingDepth) :
    decodeJSON j {} = some (convert v b.copy).canonical := by
  refine json_decodes_canonical _ j ?_ ?_ h hdepth
  · exact convert_regular v (BOM.copy_regular hr)
  · show (convert v b.copy).specVersion ≤ _
    rw [convert_specVersion]; exact hv

/-- C43: what is decoded from it reports the version asked for, and converting it to that version again only
sets the XML namespace. -/
theorem encodeVersion_decodes_converted (b b' : BOM) (v : Int) (j : Json) (hr : b.Regular)
    (hv : v ≤ SpecVersion1_7) (h : encodeVersionJSON b v = .ok j) (hd : decodeJSON j {} = some b') :
    b'.specVersion = v ∧ convert v b' = { b' with xmlns := mapGet xmlNamespaces v } := by
  have hdepth : j.depth ≤ maxNestingDepth := by
    unfold decodeJSON at hd
    split at hd
    · assumption
    · cases hd
  rw [encodeVersion_decodes b v j hr hv h hdepth] at hd
  have h2 := (encodeVersion_reports b v j h).1
  cases hd
  refine ⟨?_, bom_fix (by omega) ?_⟩
  · exact convert_specVersion v b.copy
  · exact convert_absorb (Int.le_refl v) (stepOK_self v) _

/-- The document that `EncodeVersion` writes for `usualBOM` in version 1.4. -/
def usualDoc : Json :=
  .obj [("$schema", .str "http://cyclonedx.org/schema/bom-1.4.schema.json"), ("bomFormat", .str "CycloneDX"),
    ("specVersion", .str "1.4"), ("version", .num (.ofInt 1)),
    ("metadata", .obj [("tools", .arr [.obj [("name", .str "scanner"), ("version", .str "2")]])]),
    ("components", .arr [.obj [("type", .str "library"), ("name", .str "acme"),
      ("licenses", .arr [.obj [("license", .obj [("id", .str "MIT")])]]), ("modified", .bool true),
      ("components", .arr [.obj [("type", .str "file"), ("name", .str "inner"), ("version", .str "1"),
        ("hashes", .arr [.obj [("alg", .str "MD5"), ("content", .str "00")]])]])]])]

/-- What `usualBOM` is converted to. -/
def usualConverted : BOM :=
  { xmlns := "http://cyclonedx.org/schema/bom/1.4", jsonSchema := "http://cyclonedx.org/schema/bom-1.4.schema.json",
    bomFormat := "CycloneDX", specVersion := 5, version := 1,
    metadata := some { tools := some { tools := .list [{ name := "scanner", version := "2" }] } },
    components := .list [usualComponent] }

omit [FloatIO] in
theorem usual_types : supportsComponentType SpecVersion1_4 "file" = true ∧
    supportsComponentType SpecVersion1_4 "library" = true ∧ supportsHashAlgorithm SpecVersion1_4 "MD5" = true := by
  simp [supportsComponentType, supportsHashAlgorithm, ComponentTypeFile, ComponentTypeLibrary, HashAlgoMD5,
    ComponentTypeApplication, ComponentTypeDevice, ComponentTypeFramework, ComponentTypeOS, SpecVersion1_0,
    SpecVersion1_1, SpecVersion1_4]

omit [FloatIO] in
theorem usual_converted : convert SpecVersion1_4 usualBOM = usualConverted := by
  obtain ⟨hf, hl, hm⟩ := usual_types
  have hs : supportsScope SpecVersion1_4 "" = false := by
    simp [supportsScope, ScopeRequired, ScopeOptional, ScopeExcluded]
  have hi : recurseComponent (componentConverter SpecVersion1_4) usualInner = usualInner := by
    rw [recurseComponent_go']
    apply Component.ext <;> simp [Component.mapChildren, usualInner, hf, hm, hs, PSlice.elems, storeOrNil, convertHashes,
      convertEvidence] <;> first | rfl | decide
  have hc : recurseComponent (componentConverter SpecVersion1_4) usualComponent = usualComponent := by
    rw [recurseComponent_go']
    apply Component.ext <;> simp [Component.mapChildren, usualComponent, PSlice.map, hi, hl, hs, convertEvidence,
      convertLicenses_eq] <;> rfl
  apply BOM.ext <;> simp [usualBOM, usualConverted, PSlice.map, hc, convertAnnotations, convertCompositions,
    convertVulnerabilities] <;> first | rfl | exact ⟨by decide, rfl⟩

set_option maxRecDepth 10000 in
/-- The hypotheses of C43 and C44 are met by `usualBOM` and 1.4. -/
example : usualBOM.Regular ∧ usualBOM.ToolsNonEmpty ∧ encodeVersionJSON usualBOM SpecVersion1_4 = .ok usualDoc ∧
    usualDoc.depth ≤ maxNestingDepth := by
  refine ⟨?_, ?_, ?_, by decide⟩
  · simp [BOM.Regular, usualBOM, usualComponent, usualInner, PSlice.elems, Component.Regular, RegularComponents, RegularComponentList, RegularPedigreeOpt, Metadata.Regular,
      ToolsChoice.Regular, InInt64]
  · simp [BOM.ToolsNonEmpty, usualBOM, ToolsChoice.NonEmpty, PSlice.elems]
  · have : usualBOM.copy = usualBOM := rfl
    rw [encodeVersionJSON, copyAndConvert, this, usual_converted]
    rfl

end

end Verif.Props
