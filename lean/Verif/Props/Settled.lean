import Verif.Proofs.Conforming
import Verif.Proofs.XConforming
import Verif.Props.Steps
import Verif.Props.EncodeVersion
import Verif.Props.JsonSchema
import Verif.Props.JsonRequired
import Verif.Props.JsonEnums
import Verif.Props.XmlSchema
import Verif.Props.XmlEnums
import Verif.Props.Xml
import Verif.Spec.Pointers

/-! # C85: what `EncodeVersion` writes unchanged -/

namespace Verif.Props

open Spec (walk walkService)

set_option linter.unusedSectionVars false

/-! ## The conversion -/

/-- Exactly which BOMs the conversion to a version leaves as they are, but for the version that it stamps them with. -/
theorem convert_unchanged_iff (v : Int) (hv : SpecVersion1_0 ≤ v) (b : BOM) :
    convert v b = { b with specVersion := v, xmlns := mapGet xmlNamespaces v, jsonSchema := mapGet jsonSchemas v } ↔
      b.Settled v :=
  Settled.bom hv b

/-- Every BOM that comes out of the conversion is one of them. -/
theorem convert_settled (v : Int) (hv : SpecVersion1_0 ≤ v) (b : BOM) : (convert v b).Settled v := by
  rw [← convert_unchanged_iff v hv, convert_idempotent]
  apply BOM.ext <;> simp only [convert_specVersion, convert_xmlns, convert_jsonSchema]

/-- The BOMs that come out of the conversion are those that have the stamps of the version and are settled. -/
theorem convert_range_iff (v : Int) (hv : SpecVersion1_0 ≤ v) (b : BOM) :
    (∃ a, convert v a = b) ↔
      b.specVersion = v ∧ b.xmlns = mapGet xmlNamespaces v ∧ b.jsonSchema = mapGet jsonSchemas v ∧ b.Settled v := by
  constructor
  · rintro ⟨a, rfl⟩
    exact ⟨convert_specVersion .., convert_xmlns .., convert_jsonSchema .., convert_settled v hv a⟩
  · rintro ⟨h1, h2, h3, h4⟩
    refine ⟨b, ((convert_unchanged_iff v hv b).2 h4).trans ?_⟩
    rw [← h1] at h2 h3 ⊢
    rw [← h2, ← h3]

/-! ## What conforms to the JSON schema of the version -/

/-- A BOM that has only what the JSON schema of a version declares, all that it requires, and strings that it enumerates
is left as it is exactly if it has nothing of what `BOM.Kept` lists: components of the type `cryptographic-asset`, empty
lists of hashes, details of data flows in version 1.5, ratings without a method. -/
theorem conforming_unchanged_iff (v : Int) (hv : SpecVersion1_2 ≤ v) (b : BOM) (hf : b.Fits v) (hl : b.Listed v)
    (hq : b.Complete v) :
    convert v b = { b with specVersion := v, xmlns := mapGet xmlNamespaces v, jsonSchema := mapGet jsonSchemas v } ↔
      b.Kept v := by
  rw [convert_unchanged_iff v (by simp only [SpecVersion1_0, SpecVersion1_2] at *; omega), Conforming.bom hv hf hl hq]

/-- Without the hypothesis the direction from `Kept` fails: this BOM has nothing of the list, and is changed. -/
example : ∃ b : BOM, b.Kept SpecVersion1_2 ∧ ¬ b.Settled SpecVersion1_2 :=
  ⟨{ citations := .list [{}] }, ⟨by simp, by simp [PSlice.elems], by simp [PSlice.elems], by simp [PSlice.elems],
    by simp [PSlice.elems]⟩, fun h => by simp [BOM.Settled, SpecVersion1_2, SpecVersion1_7] at h⟩

section
variable [FloatIO]

/-- The namespace is not written to JSON. -/
theorem encodeJSON_xmlns (b : BOM) (s : String) : encodeJSON { b with xmlns := s } = encodeJSON b := rfl

/-- `EncodeVersion` writes what `Encode` writes of a BOM that is settled, has the stamps of the version and is kept by
the deep copy. -/
theorem encodeVersion_settled (v : Int) (hv : SpecVersion1_0 ≤ v) (b : BOM) (hc : b.Copyable) (h1 : b.specVersion = v)
    (h2 : b.jsonSchema = mapGet jsonSchemas v) (hs : b.Settled v) : encodeVersionJSON b v = encodeJSON b := by
  rw [encodeVersionJSON, copyAndConvert, (copy_eq_iff b).2 hc, (convert_unchanged_iff v hv b).2 hs, ← h2, ← h1]
  exact encodeJSON_xmlns b _

/-- C85 for JSON: if what `Encode` writes of a BOM of version `v` already has what the schema of that version declares,
requires and enumerates, then `EncodeVersion` for that version writes the same document — unless the BOM has something of
what `BOM.Kept` lists, or something that the deep copy does not keep. -/
theorem encodeVersion_conforming_partial (v : Int) (b : BOM) (j : Json) (hc : b.Copyable) (h1 : b.specVersion = v)
    (h2 : b.jsonSchema = mapGet jsonSchemas v) (h : encodeJSON b = .ok j) (hd : j.Declared v) (hq : j.Complete v)
    (hl : j.Listed v) (hk : b.Kept v) : encodeVersionJSON b v = .ok j := by
  have hv : SpecVersion1_2 ≤ v := h1 ▸ ((json_encodes_iff b).1 ⟨j, h⟩).1
  rw [← h]
  refine encodeVersion_settled v (by simp only [SpecVersion1_0, SpecVersion1_2] at *; omega) b hc h1 h2 ?_
  exact (Conforming.bom hv ((encode_declared_iff b v j h).1 hd) ((encode_listed_iff b v j h).1 hl)
    ((encode_required_iff b v j h).1 hq)).2 hk

/-! ### A BOM that is written unchanged -/

/-- A BOM of version 1.5, with a component that has a scope, a hash, a license, a reference, a nested component and an
ancestor, a service, a composition and a vulnerability with a rating. -/
def settledBOM : BOM :=
  { bomFormat := "CycloneDX", specVersion := SpecVersion1_5, version := 1,
    jsonSchema := "http://cyclonedx.org/schema/bom-1.5.schema.json", serialNumber := "urn:uuid:1",
    metadata := some { component := some { type := "application", name := "app" },
                       authors := .list [{ name := "A", bomRef := "author" }] },
    components := .list [{ type := "machine-learning-model", name := "a", scope := "excluded",
                           hashes := .list [⟨"BLAKE3", "00"⟩],
                           licenses := .list [{ license := some { id := "MIT", bomRef := "l" } }],
                           externalReferences := .list [{ url := "u", type := "model-card" }],
                           components := .list [{ type := "data", name := "b" }],
                           pedigree := some { ancestors := .list [{ type := "file", name := "c" }] } }],
    services := .list [{ name := "s", data := .list [{ flow := "inbound", classification := "PII" }], trustZone := "z" }],
    compositions := .list [{ aggregate := "incomplete_first_party_proprietary_only" }],
    vulnerabilities := .list [{ ratings := .list [{ method := "SSVC", severity := "high" }] }] }

theorem settledBOM_fits : settledBOM.Fits SpecVersion1_5 := by
  simp [settledBOM, BOM.Fits, Metadata.Fits, Component.Fits, FitsComponents, FitsComponentList, FitsPedigreeOpt, FitsPedigree,
    Service.Fits, FitsServices, OrganizationalContact.Fits, LicenseChoice.Fits, License.Fits, ExternalReference.Fits,
    DataClassification.Fits, Composition.Fits, Vulnerability.Fits, PSlice.elems, SpecVersion1_3, SpecVersion1_4, SpecVersion1_5]

set_option maxRecDepth 10000 in
theorem settledBOM_complete : settledBOM.Complete SpecVersion1_5 := by
  simp [settledBOM, BOM.Complete, Metadata.Complete, Component.Complete, CompleteComponents, CompleteComponentList,
    CompletePedigreeOpt, CompletePedigree, Service.Complete, CompleteServices, LicenseChoice.Complete, License.Complete,
    DataClassification.Complete, Composition.Complete, Vulnerability.Complete, PSlice.elems, SpecVersion1_3, SpecVersion1_5]

theorem settledBOM_listed : settledBOM.Listed SpecVersion1_5 := by
  have h1 : Place.Lists SpecVersion1_5 .bom "bomFormat" "CycloneDX" := by decide +kernel
  have h2 : ∀ t ∈ ["application", "machine-learning-model", "data", "file"], Place.Lists SpecVersion1_5 .component "type" t := by
    decide +kernel
  have h3 : Place.Lists SpecVersion1_5 .component "scope" "excluded" := by decide +kernel
  have h4 : Place.Lists SpecVersion1_5 .hash "alg" "BLAKE3" := by decide +kernel
  have h5 : Place.Lists SpecVersion1_5 .externalReference "type" "model-card" := by decide +kernel
  have h6 : Place.Lists SpecVersion1_5 .compositions "aggregate" "incomplete_first_party_proprietary_only" := by decide +kernel
  have h7 : Place.Lists SpecVersion1_5 .rating "method" "SSVC" := by decide +kernel
  have h8 : Place.Lists SpecVersion1_5 .rating "severity" "high" := by decide +kernel
  have h9 : Place.Lists SpecVersion1_5 .serviceData "flow" "inbound" := by decide +kernel
  simp only [List.mem_cons, List.not_mem_nil, or_false, forall_eq_or_imp, forall_eq] at h2
  simp [settledBOM, BOM.Listed, Metadata.Listed, Component.Listed, ListedComponents, ListedComponentList,
    ListedPedigreeOpt, ListedPedigree, Service.Listed, ListedServices, LicenseChoice.Listed, License.Listed, Hash.Listed,
    ExternalReference.Listed, DataClassification.Listed, Composition.Listed, Vulnerability.Listed,
    VulnerabilityRating.Listed, PSlice.elems, h1, h2, h3, h4, h5, h6, h7, h8, h9]

theorem settledBOM_kept : settledBOM.Kept SpecVersion1_5 := by
  refine ⟨?_, ?_, ?_, ?_, ?_⟩
  · intro m hm
    simp only [settledBOM, Option.mem_some_iff] at hm
    subst hm
    refine ⟨fun c hc => ?_, by simp⟩
    simp only [Option.mem_some_iff] at hc
    subst hc
    refine (FitsConverted.walk_all (P := fun d => d.type ≠ "cryptographic-asset" ∧ d.hashes ≠ .list []) _).2
      ⟨by simp, fun e he => ?_⟩
    simp [Component.children, PSlice.elems] at he
  · intro c hc
    simp only [settledBOM, PSlice.elems, List.mem_singleton] at hc
    subst hc
    refine (FitsConverted.walk_all (P := fun d => d.type ≠ "cryptographic-asset" ∧ d.hashes ≠ .list []) _).2
      ⟨by simp, fun e he => ?_⟩
    simp only [Component.children, PSlice.elems, Option.elim_some, Pedigree.relatives, List.append_nil, List.cons_append,
      List.nil_append, List.mem_cons, List.not_mem_nil, or_false] at he
    rcases he with rfl | rfl
    all_goals
      refine (FitsConverted.walk_all (P := fun d => d.type ≠ "cryptographic-asset" ∧ d.hashes ≠ .list []) _).2
        ⟨by simp, fun e he => ?_⟩
      simp [Component.children, PSlice.elems] at he
  · intro s hs _
    simp only [settledBOM, PSlice.elems, List.mem_singleton] at hs
    subst hs
    refine (FitsConverted.walkService_all (P := fun t => ∀ x ∈ t.data.elems,
      x.name = "" ∧ x.description = "" ∧ x.governance = none ∧ x.source = .nil ∧ x.destination = .nil) _).2
      ⟨by simp [PSlice.elems], fun e he => ?_⟩
    simp [Service.children, PSlice.elems] at he
  · simp [settledBOM, PSlice.elems]
  · simp [settledBOM, PSlice.elems]

set_option maxRecDepth 20000 in
/-- The hypotheses of `encodeVersion_conforming_partial` are met, and what it says. -/
example : ∃ j, encodeJSON settledBOM = .ok j ∧ j.Declared SpecVersion1_5 ∧ j.Complete SpecVersion1_5 ∧
    j.Listed SpecVersion1_5 ∧ encodeVersionJSON settledBOM SpecVersion1_5 = .ok j := by
  have hj : ∃ j, encodeJSON settledBOM = .ok j := ⟨_, rfl⟩
  obtain ⟨j, hj⟩ := hj
  have hd := (encode_declared_iff _ _ j hj).2 settledBOM_fits
  have hq := (encode_required_iff _ _ j hj).2 settledBOM_complete
  have hl := (encode_listed_iff _ _ j hj).2 settledBOM_listed
  exact ⟨j, hj, hd, hq, hl, encodeVersion_conforming_partial _ _ j ((copy_eq_iff _).1 rfl) rfl (by decide +kernel) hj hd hq hl
    settledBOM_kept⟩

/-! ### What conforms and is changed -/

/-- BOMs of a version that conform to the schema of that version: a component of the type `cryptographic-asset` in 1.6
and in 1.7, details of a data flow in 1.5, and a rating without a method in 1.4; with the names of the members, from the
root of the document, where the difference is. -/
def changedBOMs : List (BOM × Int × List String) :=
  [({ bomFormat := "CycloneDX", specVersion := SpecVersion1_6, version := 1,
      jsonSchema := "http://cyclonedx.org/schema/bom-1.6.schema.json",
      components := .list [{ type := "cryptographic-asset", name := "k" }] }, SpecVersion1_6, ["components", "type"]),
   ({ bomFormat := "CycloneDX", specVersion := SpecVersion1_7, version := 1,
      jsonSchema := "http://cyclonedx.org/schema/bom-1.7.schema.json",
      components := .list [{ type := "cryptographic-asset", name := "k" }] }, SpecVersion1_7, ["components", "type"]),
   ({ bomFormat := "CycloneDX", specVersion := SpecVersion1_5, version := 1,
      jsonSchema := "http://cyclonedx.org/schema/bom-1.5.schema.json",
      services := .list [{ name := "s", data := .list [{ flow := "inbound", classification := "PII", name := "n" }] }] },
    SpecVersion1_5, ["services", "data", "name"]),
   ({ bomFormat := "CycloneDX", specVersion := SpecVersion1_4, version := 1,
      jsonSchema := "http://cyclonedx.org/schema/bom-1.4.schema.json",
      vulnerabilities := .list [{ ratings := .list [{ severity := "high" }] }] },
    SpecVersion1_4, ["vulnerabilities", "ratings", "method"])]

/-- What is the matter with them: what `Encode` writes conforms, the deep copy keeps the BOM, the stamps are those of the
version, and `EncodeVersion` writes another document. -/
def Changed (b : BOM) (v : Int) (path : List String) : Prop :=
  b.Copyable ∧ b.specVersion = v ∧ b.jsonSchema = mapGet jsonSchemas v ∧
  ∃ j j', encodeJSON b = .ok j ∧ j.Declared v ∧ j.Complete v ∧ j.Listed v ∧
    encodeVersionJSON b v = .ok j' ∧ j.along path ≠ j'.along path

theorem changed_of {b b' : BOM} {v : Int} {path : List String} {j j' : Json} (hv : b.specVersion = v)
    (hs : b.jsonSchema = mapGet jsonSchemas v) (hc : b.copy = b) (hb : convert v b.copy = b') (h : encodeJSON b = .ok j)
    (h' : encodeJSON b' = .ok j') (hf : b.Fits v) (hq : b.Complete v) (hl : b.Listed v)
    (hp : j.along path ≠ j'.along path) : Changed b v path :=
  ⟨(copy_eq_iff b).1 hc, hv, hs, j, j', h, (encode_declared_iff b v j h).2 hf, (encode_required_iff b v j h).2 hq,
    (encode_listed_iff b v j h).2 hl, by rw [encodeVersionJSON, copyAndConvert, hb, h'], hp⟩

set_option maxRecDepth 20000 in
/-- Without `BOM.Kept` the claim fails. -/
theorem encodeVersion_conforming_changed : ∀ e ∈ changedBOMs, Changed e.1 e.2.1 e.2.2 := by
  have l0 : ∀ v ∈ [SpecVersion1_4, SpecVersion1_5, SpecVersion1_6, SpecVersion1_7], Place.Lists v .bom "bomFormat" "CycloneDX" := by
    decide +kernel
  have l1 : ∀ v ∈ [SpecVersion1_6, SpecVersion1_7], Place.Lists v .component "type" "cryptographic-asset" := by decide +kernel
  have l2 : Place.Lists SpecVersion1_4 .rating "severity" "high" := by decide +kernel
  have l3 : Place.Lists SpecVersion1_5 .serviceData "flow" "inbound" := by decide +kernel
  simp only [List.mem_cons, List.not_mem_nil, or_false, forall_eq_or_imp, forall_eq] at l0 l1
  simp only [changedBOMs, List.forall_mem_cons, List.not_mem_nil, false_implies, implies_true, and_true]
  refine ⟨?_, ?_, ?_, ?_⟩
  · refine changed_of (b' := {
      bomFormat := "CycloneDX", specVersion := SpecVersion1_6, version := 1,
      jsonSchema := "http://cyclonedx.org/schema/bom-1.6.schema.json", xmlns := "http://cyclonedx.org/schema/bom/1.6",
      components := .list [{ type := "application", name := "k" }] }) rfl (by decide +kernel) rfl (by rfl) rfl rfl ?_ ?_ ?_ ?_
    · simp [BOM.Fits, Component.Fits, FitsComponents, FitsPedigreeOpt, PSlice.elems]
    · simp [BOM.Complete, Component.Complete, CompleteComponents, CompletePedigreeOpt, PSlice.elems, SpecVersion1_3, SpecVersion1_6]
    · simp [BOM.Listed, Component.Listed, ListedComponents, ListedPedigreeOpt, PSlice.elems, l0, l1]
    · decide +kernel
  · refine changed_of (b' := {
      bomFormat := "CycloneDX", specVersion := SpecVersion1_7, version := 1,
      jsonSchema := "http://cyclonedx.org/schema/bom-1.7.schema.json", xmlns := "http://cyclonedx.org/schema/bom/1.7",
      components := .list [{ type := "application", name := "k" }] }) rfl (by decide +kernel) rfl (by rfl) rfl rfl ?_ ?_ ?_ ?_
    · simp [BOM.Fits, Component.Fits, FitsComponents, FitsPedigreeOpt, PSlice.elems]
    · simp [BOM.Complete, Component.Complete, CompleteComponents, CompletePedigreeOpt, PSlice.elems, SpecVersion1_3, SpecVersion1_7]
    · simp [BOM.Listed, Component.Listed, ListedComponents, ListedPedigreeOpt, PSlice.elems, l0, l1]
    · decide +kernel
  · refine changed_of (b' := {
      bomFormat := "CycloneDX", specVersion := SpecVersion1_5, version := 1,
      jsonSchema := "http://cyclonedx.org/schema/bom-1.5.schema.json", xmlns := "http://cyclonedx.org/schema/bom/1.5",
      services := .list [{ name := "s", data := .list [{ flow := "inbound", classification := "PII" }] }] })
      rfl (by decide +kernel) rfl (by rfl) rfl rfl ?_ ?_ ?_ ?_
    · simp [BOM.Fits, Service.Fits, FitsServices, DataClassification.Fits, PSlice.elems]
    · simp [BOM.Complete, Service.Complete, CompleteServices, DataClassification.Complete, PSlice.elems]
    · simp [BOM.Listed, Service.Listed, ListedServices, DataClassification.Listed, PSlice.elems, l0, l3]
    · decide +kernel
  · refine changed_of (b' := {
      bomFormat := "CycloneDX", specVersion := SpecVersion1_4, version := 1,
      jsonSchema := "http://cyclonedx.org/schema/bom-1.4.schema.json", xmlns := "http://cyclonedx.org/schema/bom/1.4",
      vulnerabilities := .list [{ ratings := .list [{ severity := "high", method := "other" }] }] })
      rfl (by decide +kernel) rfl (by rfl) rfl rfl ?_ ?_ ?_ ?_
    · simp [BOM.Fits, Vulnerability.Fits, PSlice.elems]
    · simp [BOM.Complete, Vulnerability.Complete, PSlice.elems]
    · simp [BOM.Listed, Vulnerability.Listed, VulnerabilityRating.Listed, PSlice.elems, l0, l2]
    · decide +kernel

end

/-! ## XML -/

section
variable [XFloatIO]

/-- The version and the JSON schema are not written to XML. -/
theorem encodeXML_stamps (b : BOM) (v : Int) (s : String) :
    encodeXML { b with specVersion := v, jsonSchema := s } = encodeXML b := rfl

/-- C85 for XML: `EncodeVersion` writes what `Encode` writes of a BOM that is settled, has the namespace of the version and
is kept by the deep copy. -/
theorem encodeVersionXML_settled (v : Int) (hv : SpecVersion1_0 ≤ v) (b : BOM) (hc : b.Copyable)
    (h2 : b.xmlns = mapGet xmlNamespaces v) (hs : b.Settled v) : encodeVersionXML b v = encodeXML b := by
  rw [encodeVersionXML, copyAndConvert, (copy_eq_iff b).2 hc, (convert_unchanged_iff v hv b).2 hs, ← h2]
  exact encodeXML_stamps b _ _

/-- A BOM of version 1.0. -/
def settledOldBOM : BOM :=
  { specVersion := SpecVersion1_0, version := 1, xmlns := "http://cyclonedx.org/schema/bom/1.0",
    components := .list [{ type := "library", name := "a", version := "1", scope := "optional", modified := some true,
                           hashes := .list [⟨"MD5", "00"⟩],
                           licenses := .list [{ license := some { id := "MIT" } }, { license := some { name := "mine" } }],
                           components := .list [{ type := "framework", name := "b", version := "2", modified := some true }] }] }

set_option maxRecDepth 20000 in
theorem settledOldBOM_settled : settledOldBOM.Settled SpecVersion1_0 :=
  (convert_unchanged_iff _ (by decide) _).1 rfl

set_option maxRecDepth 20000 in
example : ∃ doc, encodeXML settledOldBOM = some doc ∧ encodeVersionXML settledOldBOM SpecVersion1_0 = some doc := by
  have h : ∃ doc, encodeXML settledOldBOM = some doc := ⟨_, rfl⟩
  obtain ⟨doc, h⟩ := h
  exact ⟨doc, h, (encodeVersionXML_settled _ (by decide) _ ((copy_eq_iff _).1 rfl) (by decide +kernel) settledOldBOM_settled).trans h⟩

/-- Without the flag the component is not settled: version 1.0 requires one, and the conversion supplies it. -/
example : ¬ ({ settledOldBOM with components := .list [{ type := "library", name := "a", version := "1" }] } : BOM).Settled
    SpecVersion1_0 := by
  intro h
  have := h.2.2.1 _ List.mem_cons_self [] _ rfl
  simp [Component.OwnSettled, SpecVersion1_1, SpecVersion1_0] at this

/-- Of the BOMs that conform to the XML schema of a version, and that can be written to a document and read back, exactly
those are left as they are that have nothing of what `BOM.XKept` lists. -/
theorem xconforming_unchanged_iff (v : Int) (hv : SpecVersion1_0 ≤ v) (b : BOM) (hp : b.XPlain) (hw : b.XWritable)
    (hf : b.XFits v) (hl : b.XListed v) :
    convert v b = { b with specVersion := v, xmlns := mapGet xmlNamespaces v, jsonSchema := mapGet jsonSchemas v } ↔
      b.XKept v := by
  rw [convert_unchanged_iff v hv, XConforming.bom hv hp hw hf hl]

omit [XFloatIO] in
/-- The namespaces of the schemas are those of the table of the library. -/
theorem schemaNamespace_inv {v : Int} {s : String} (h : some s = schemaNamespace v) :
    SpecVersion1_0 ≤ v ∧ s = mapGet xmlNamespaces v := by
  unfold schemaNamespace at h
  split_ifs at h with h0 h1 h2 h3 h4 h5 h6 h7
  all_goals (cases h; subst v; exact ⟨by decide, by decide +kernel⟩)

/-- C85 for XML: if what `Encode` writes of a BOM already has the structure that the XML schema of a version prescribes, with
the strings that it enumerates, then `EncodeVersion` for that version writes the same document — unless the BOM has
something of what `BOM.XKept` lists, or something that the deep copy or a document does not keep. -/
theorem encodeVersionXML_conforming_partial (v : Int) (b : BOM) (doc : XmlDoc) (hc : b.Copyable) (hp : b.XPlain)
    (h : encodeXML b = some doc) (hd : doc.Valid v) (hl : doc.Listed v) (hk : b.XKept v) :
    encodeVersionXML b v = some doc := by
  obtain ⟨hn, hf⟩ := (encodeXML_valid_iff b v doc h).1 hd
  rw [(sanitize_eq _).2 hp.1] at hn
  obtain ⟨hv, hx⟩ := schemaNamespace_inv hn
  rw [← h]
  exact encodeVersionXML_settled v hv b hc hx ((XConforming.bom hv hp ((xml_encodes_iff b).1 ⟨doc, h⟩) hf
    ((encodeXML_listed_iff b v doc h).1 hl)).2 hk)

set_option maxRecDepth 20000 in
/-- A case of `encodeVersionXML_conforming_partial`, in version 1.0. -/
example : ∃ doc, settledOldBOM.Copyable ∧ settledOldBOM.XPlain ∧ encodeXML settledOldBOM = some doc ∧
    doc.Valid SpecVersion1_0 ∧ doc.Listed SpecVersion1_0 ∧ settledOldBOM.XKept SpecVersion1_0 ∧
    encodeVersionXML settledOldBOM SpecVersion1_0 = some doc := by
  have hc : settledOldBOM.Copyable := (copy_eq_iff _).1 rfl
  have hp : settledOldBOM.XPlain := by
    simp [settledOldBOM, BOM.XPlain, Component.XPlain, XPlainComponents, XPlainComponentList, XPlainPedigreeOpt, PSlice.XEach,
      LicenseChoice.XPlain, License.XPlain, Hash.XPlain]
    decide +kernel
  have hf : settledOldBOM.XFits SpecVersion1_0 := by
    simp [settledOldBOM, BOM.XFits, Component.XFits, XFitsComponents, XFitsComponentList, XFitsPedigreeOpt, XFitsLicenses,
      LicenseChoice.XFits, License.XFits, PSlice.elems, SpecVersion1_0, SpecVersion1_1, SpecVersion1_2, SpecVersion1_4,
      SpecVersion1_7]
  have hl : settledOldBOM.XListed SpecVersion1_0 := by
    have l1 : XPlace.ListsAttr SpecVersion1_0 .component "type" "library" := by intro gs h; cases h; decide +kernel
    have l2 : XPlace.ListsAttr SpecVersion1_0 .component "type" "framework" := by intro gs h; cases h; decide +kernel
    have l3 : XPlace.ListsElem SpecVersion1_0 .component "scope" "optional" := by intro gs h; cases h; decide +kernel
    have l4 : XPlace.ListsAttr SpecVersion1_0 .hash "alg" "MD5" := by intro gs h; cases h; decide +kernel
    simp [settledOldBOM, BOM.XListed, Component.XListed, XListedComponents, XListedComponentList, XListedPedigreeOpt,
      Hash.XListed, LicenseChoice.XListed, License.XListed, PSlice.elems, l1, l2, l3, l4]
  have hd : ∃ doc, encodeXML settledOldBOM = some doc := ⟨_, rfl⟩
  obtain ⟨doc, h⟩ := hd
  have hw := (xml_encodes_iff _).1 ⟨doc, h⟩
  have hk := (XConforming.bom (by decide) hp hw hf hl).1 settledOldBOM_settled
  have hv := (encodeXML_valid_iff _ _ doc h).2 ⟨by decide +kernel, hf⟩
  have hl := (encodeXML_listed_iff _ _ doc h).2 hl
  exact ⟨doc, hc, hp, h, hv, hl, hk, encodeVersionXML_conforming_partial _ _ doc hc hp h hv hl hk⟩

/-! ### What is changed although the XML schema allows it -/

/-- BOMs that conform to the XML schema of a version, and where `EncodeVersion` for that version changes them: the type of
a cryptographic asset, the scope `excluded` in version 1.1, the name
of a data flow in version 1.5, and a rating without a method. -/
def changedXMLBOMs : List (BOM × Int × (Xml → List String) × List String) :=
  [({ version := 1, xmlns := "http://cyclonedx.org/schema/bom/1.6",
      components := .list [{ type := "cryptographic-asset", name := "k" }] },
    SpecVersion1_6, Xml.valuesOf "type", ["components", "component"]),
   ({ version := 1, xmlns := "http://cyclonedx.org/schema/bom/1.1",
      components := .list [{ type := "library", name := "k", version := "1", scope := "excluded" }] },
    SpecVersion1_1, Xml.ownText, ["components", "component", "scope"]),
   ({ version := 1, xmlns := "http://cyclonedx.org/schema/bom/1.5",
      services := .list [{ name := "s", data := .list [{ flow := "inbound", classification := "PII", name := "n" }] }] },
    SpecVersion1_5, Xml.valuesOf "name", ["services", "service", "data", "dataflow"]),
   ({ version := 1, xmlns := "http://cyclonedx.org/schema/bom/1.4",
      vulnerabilities := .list [{ ratings := .list [{ severity := "high" }] }] },
    SpecVersion1_4, Xml.ownText, ["vulnerabilities", "vulnerability", "ratings", "rating", "method"])]

/-- The BOM is kept by the deep copy and by a document, and its document conforms to the schema of version `v`; but
`EncodeVersion` for that version writes something else at the path. -/
def ChangedXML (b : BOM) (v : Int) (f : Xml → List String) (path : List String) : Prop :=
  b.Copyable ∧ b.XPlain ∧
  ∃ doc doc', encodeXML b = some doc ∧ doc.Valid v ∧ doc.Listed v ∧
    encodeVersionXML b v = some doc' ∧ doc.root.along f path ≠ doc'.root.along f path

theorem changedXML_of {b b' : BOM} {v : Int} {f : Xml → List String} {path : List String} {doc doc' : XmlDoc}
    {l l' : List String} (hs : some (Xml.sanitize b.xmlns) = schemaNamespace v) (hc : b.copy = b) (hb : convert v b.copy = b')
    (h : encodeXML b = some doc) (h' : encodeXML b' = some doc') (hx : b.XPlain) (hf : b.XFits v) (hl : b.XListed v)
    (h1 : doc.root.along f path = l) (h2 : doc'.root.along f path = l') (hp : l ≠ l') : ChangedXML b v f path :=
  ⟨(copy_eq_iff b).1 hc, hx, doc, doc', h, (encodeXML_valid_iff b v doc h).2 ⟨hs, hf⟩,
    (encodeXML_listed_iff b v doc h).2 hl, by rw [encodeVersionXML, copyAndConvert, hb, h'], by rw [h1, h2]; exact hp⟩

set_option maxRecDepth 20000 in
/-- Without `BOM.XKept` the claim fails. -/
theorem encodeVersionXML_conforming_changed : ∀ e ∈ changedXMLBOMs, ChangedXML e.1 e.2.1 e.2.2.1 e.2.2.2 := by
  have l1 : XPlace.ListsAttr SpecVersion1_6 .component "type" "cryptographic-asset" := by
    intro gs h; cases h; decide +kernel
  have l2 : XPlace.ListsAttr SpecVersion1_1 .component "type" "library" := by intro gs h; cases h; decide +kernel
  have l3 : XPlace.ListsElem SpecVersion1_1 .component "scope" "excluded" := by intro gs h; cases h; decide +kernel
  have l4 : XPlace.ListsAttr SpecVersion1_5 .dataClassification "flow" "inbound" := by intro gs h; cases h; decide +kernel
  have l5 : XPlace.ListsElem SpecVersion1_4 .rating "severity" "high" := by intro gs h; cases h; decide +kernel
  simp only [changedXMLBOMs, List.forall_mem_cons, List.not_mem_nil, false_implies, implies_true, and_true]
  refine ⟨?_, ?_, ?_, ?_⟩
  · refine changedXML_of (l := ["cryptographic-asset"]) (l' := ["application"]) (b' := {
      specVersion := SpecVersion1_6, version := 1,
      jsonSchema := "http://cyclonedx.org/schema/bom-1.6.schema.json", xmlns := "http://cyclonedx.org/schema/bom/1.6",
      components := .list [{ type := "application", name := "k" }] }) (by decide +kernel) rfl (by rfl) rfl rfl ?_ ?_ ?_ rfl rfl (by decide +kernel)
    · simp [BOM.XPlain, Component.XPlain, XPlainComponents, XPlainPedigreeOpt, PSlice.XEach]
      decide +kernel
    · simp [BOM.XFits, Component.XFits, XFitsComponents, XFitsPedigreeOpt, XFitsLicenses, PSlice.elems, SpecVersion1_0, SpecVersion1_1, SpecVersion1_2, SpecVersion1_3, SpecVersion1_4, SpecVersion1_5, SpecVersion1_6, SpecVersion1_7]
    · simp [BOM.XListed, Component.XListed, XListedComponents, XListedPedigreeOpt, PSlice.elems, l1]
  · refine changedXML_of (l := ["excluded"]) (l' := []) (b' := {
      specVersion := SpecVersion1_1, version := 1,
      jsonSchema := "", xmlns := "http://cyclonedx.org/schema/bom/1.1",
      components := .list [{ type := "library", name := "k", version := "1" }] }) (by decide +kernel) rfl (by rfl) rfl rfl ?_ ?_ ?_ rfl rfl (by decide +kernel)
    · simp [BOM.XPlain, Component.XPlain, XPlainComponents, XPlainPedigreeOpt, PSlice.XEach]
      decide +kernel
    · simp [BOM.XFits, Component.XFits, XFitsComponents, XFitsPedigreeOpt, XFitsLicenses, PSlice.elems, SpecVersion1_0, SpecVersion1_1, SpecVersion1_2, SpecVersion1_3, SpecVersion1_4, SpecVersion1_5, SpecVersion1_6, SpecVersion1_7]
    · simp [BOM.XListed, Component.XListed, XListedComponents, XListedPedigreeOpt, PSlice.elems, l2, l3]
  · refine changedXML_of (l := ["n"]) (l' := []) (b' := {
      specVersion := SpecVersion1_5, version := 1,
      jsonSchema := "http://cyclonedx.org/schema/bom-1.5.schema.json", xmlns := "http://cyclonedx.org/schema/bom/1.5",
      services := .list [{ name := "s", data := .list [{ flow := "inbound", classification := "PII" }] }] })
      (by decide +kernel) rfl (by rfl) rfl rfl ?_ ?_ ?_ rfl rfl (by decide +kernel)
    · simp [BOM.XPlain, Service.XPlain, XPlainServices, XPlainServiceList, DataClassification.XPlain, PSlice.XEach]
      decide +kernel
    · simp [BOM.XFits, Service.XFits, XFitsServices, XFitsLicenses, DataClassification.XFits, PSlice.elems, SpecVersion1_0, SpecVersion1_1, SpecVersion1_2, SpecVersion1_3, SpecVersion1_4, SpecVersion1_5, SpecVersion1_6, SpecVersion1_7]
    · simp [BOM.XListed, Service.XListed, XListedServices, DataClassification.XListed, PSlice.elems, l4]
  · refine changedXML_of (l := []) (l' := ["other"]) (b' := {
      specVersion := SpecVersion1_4, version := 1,
      jsonSchema := "http://cyclonedx.org/schema/bom-1.4.schema.json", xmlns := "http://cyclonedx.org/schema/bom/1.4",
      vulnerabilities := .list [{ ratings := .list [{ severity := "high", method := "other" }] }] })
      (by decide +kernel) rfl (by rfl) rfl rfl ?_ ?_ ?_ rfl rfl (by decide +kernel)
    · simp [BOM.XPlain, Vulnerability.XPlain, VulnerabilityRating.XPlain, PSlice.XEach]
      decide +kernel
    · simp [BOM.XFits, Vulnerability.XFits, PSlice.elems, SpecVersion1_0, SpecVersion1_1, SpecVersion1_2, SpecVersion1_3, SpecVersion1_4, SpecVersion1_5, SpecVersion1_6, SpecVersion1_7]
    · simp [BOM.XListed, Vulnerability.XListed, VulnerabilityRating.XListed, PSlice.elems, l5]

end

end Verif.Props
