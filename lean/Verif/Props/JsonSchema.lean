import Verif.Spec.JsonSchema
import Verif.Json.FitsLaws
import Verif.Proofs.FitsConverted
import Verif.Props.EncodeVersion

/-! # C52: what is written and what the JSON schema declares -/

namespace Verif.Props

open Spec (Known hashAlgorithmSince)

set_option linter.unusedSectionVars false
set_option linter.unusedSimpArgs false

variable [FloatIO]

/-- C52 for `Encode`: what is written uses only what the schema of a version declares exactly if the BOM has
nothing in a field that this schema does not declare, at any depth (`BOM.Fits`). -/
theorem encode_declared_iff (b : BOM) (v : Int) (j : Json) (h : encodeJSON b = .ok j) :
    j.Declared v ↔ b.Fits v := by
  unfold encodeJSON at h
  split at h
  · cases h
  · split at h
    · cases h
    · rename_i j' hj
      cases h
      exact fit_bom v b j hj

/-- C52: what `EncodeVersion` writes for version `v` uses only what the schema of `v` declares exactly if the
BOM has none of the contents that the conversion leaves behind (`BOM.FitsConverted`, a list of them). -/
theorem encodeVersion_declared_iff (b : BOM) (v : Int) (j : Json) (h : encodeVersionJSON b v = .ok j) :
    j.Declared v ↔ b.FitsConverted v := by
  rw [encode_declared_iff _ v j h]
  have hv : SpecVersion1_2 ≤ v := by
    have := ((json_encodes_iff (copyAndConvert v b)).1 ⟨j, h⟩).1
    rwa [copyAndConvert, convert_specVersion] at this
  exact FitsConverted.bom hv b

/-- C52, for the BOMs that have nothing of what is left behind. -/
theorem encodeVersion_declared_partial (b : BOM) (v : Int) (j : Json) (h : encodeVersionJSON b v = .ok j)
    (hf : b.FitsConverted v) : j.Declared v :=
  (encodeVersion_declared_iff b v j h).2 hf

/-! ## A BOM that is written within the schema of every version -/

/-- A component with most of what later versions added, and another one inside it. -/
def richComponent : Component :=
  { bomRef := "c", type := "library", name := "acme", version := "1",
    hashes := .list [{ algorithm := "SHA-256", value := "00" }, { algorithm := "Streebog-256", value := "01" }],
    licenses := .list [{ license := some { id := "MIT", bomRef := "l", acknowledgement := "declared", licensing := some { purchaseOrder := "7" } } }],
    omniborID := .list ["gitoid:blob:sha1:a"], tags := .list ["a"], isExternal := some true, versionRange := "vers:npm/1.0",
    properties := .list [{ name := "k", value := "v" }],
    manufacturer := some { bomRef := "m", name := "ACME", address := some { country := "AT" } },
    authors := .list [{ bomRef := "a", name := "A" }],
    externalReferences := .list [{ url := "https://example.com", type := "patent", hashes := .list [{ algorithm := "MD5", value := "0" }], properties := .list [{ name := "k", value := "v" }] }],
    releaseNotes := some { type := "major" }, data := .list [{ type := "dataset" }],
    evidence := some { identity := some { identities := .list [{ field := "purl", concludedValue := "x" }] }, copyright := .list [{ text := "ACME" }] },
    modelCard := some { bomRef := "mc" }, cryptoProperties := some { assetType := "algorithm", algorithmProperties := some { ellipticCurve := "c" } },
    components := .list [{ type := "file", name := "f", versionRange := "vers:npm/1.0" }] }

/-- A BOM of version 1.7 with this component, dependencies, vulnerabilities and citations. -/
def richBOM : BOM :=
  { bomFormat := "CycloneDX", specVersion := 8, version := 1, components := .list [richComponent],
    dependencies := .list [{ ref := "c", provides := .list ["d"] }],
    vulnerabilities := .list [{ bomRef := "v", workaround := "w", rejected := "2020", credits := some { organizations := .list [{ name := "A", address := some { country := "AT" } }] } }],
    citations := .list [{ bomRef := "x", pointers := .list ["/components"], timestamp := "2020", attributedTo := some ⟨"a"⟩ }] }

/-- It has none of the contents that are left behind, at any version. -/
theorem richBOM_fits (v : Int) (hv : SpecVersion1_2 ≤ v) : richBOM.FitsConverted v := by
  have own : ∀ c : Component, c.FitsConverted v ↔ c.OwnFits v ∧ ∀ d ∈ c.children, d.FitsConverted v :=
    fun c => FitsConverted.walk_all c
  have hk : Known hashAlgorithmSince v "SHA-256" := by
    rw [← supportsHashAlgorithm_schema]
    simp only [SpecVersion1_2] at hv
    simp [supportsHashAlgorithm, HashAlgoSHA256, HashAlgoMD5, HashAlgoSHA1, SpecVersion1_0]
    omega
  have leaf : Component.FitsConverted v { type := "file", name := "f", versionRange := "vers:npm/1.0" } := by
    rw [own]
    simp [Component.OwnFits, Component.children, PSlice.elems, HashesFit]
  have rich : Component.FitsConverted v richComponent := by
    rw [own]
    refine ⟨?_, ?_⟩
    · simp [richComponent, Component.OwnFits, PSlice.elems, HashesFit, hk, LicenseChoice.FitsConverted,
        Evidence.FitsConverted, MLModelCard.FitsConverted, CryptoProperties.FitsConverted, ComponentData.FitsCopied]
    · simp only [richComponent, Component.children, PSlice.elems, List.append_nil, List.mem_singleton, forall_eq]
      exact leaf
  simp [BOM.FitsConverted, richBOM, rich, PSlice.elems]

set_option maxRecDepth 10000 in
example (v : Int) (hv : SpecVersion1_2 ≤ v) : ∃ j, encodeVersionJSON richBOM v = .ok j ∧ j.Declared v := by
  obtain ⟨j, hj⟩ := encodeVersion_total_partial richBOM v _ rfl
    (by simp [BOM.ToolsNonEmpty, richBOM, PSlice.elems]) hv
  exact ⟨j, hj, encodeVersion_declared_partial _ _ _ hj (richBOM_fits v hv)⟩

/-! ## What is left behind -/

/-- A component with only a hash that version 1.6 does not know; it is written as `"hashes": null`. -/
def onlyNewHash : BOM :=
  { bomFormat := "CycloneDX", specVersion := 8, version := 1,
    components := .list [{ type := "library", name := "acme", hashes := .list [{ algorithm := "Streebog-256", value := "00" }] }] }

/-- Properties of the BOM, which the schemas declare from version 1.5 on. -/
def withProperties : BOM :=
  { bomFormat := "CycloneDX", specVersion := 8, version := 1, properties := .list [{ name := "k", value := "v" }] }

/-- A signature, which the schemas declare from version 1.4 on. -/
def withSignature : BOM :=
  { bomFormat := "CycloneDX", specVersion := 8, version := 1, signature := some {} }

/-- Tags of a service, which the schemas declare from version 1.6 on. -/
def withServiceTags : BOM :=
  { bomFormat := "CycloneDX", specVersion := 8, version := 1, services := .list [{ name := "s", tags := .list ["t"] }] }

/-- The acknowledgement of a license expression, which the schemas declare from version 1.6 on. -/
def withAcknowledgement : BOM :=
  { bomFormat := "CycloneDX", specVersion := 8, version := 1,
    components := .list [{ type := "library", name := "acme", licenses := .list [{ expression := "MIT", acknowledgement := some "declared" }] }] }

/-- An acknowledged license as evidence: below version 1.5 these licenses are not converted. -/
def withEvidenceLicense : BOM :=
  { bomFormat := "CycloneDX", specVersion := 8, version := 1,
    components := .list [{ type := "library", name := "acme", evidence := some { licenses := .list [{ license := some { id := "MIT", acknowledgement := "declared" } }] } }] }

/-- A tool that is a component with tags: such components are not converted. -/
def withToolComponent : BOM :=
  { bomFormat := "CycloneDX", specVersion := 8, version := 1,
    metadata := some { tools := some { components := .list [{ type := "application", name := "t", tags := .list ["t"] }] } } }

/-- The address of a supplier, which the schemas declare from version 1.6 on. -/
def withSupplierAddress : BOM :=
  { bomFormat := "CycloneDX", specVersion := 8, version := 1,
    components := .list [{ type := "library", name := "acme", supplier := some { name := "S", address := some { country := "AT" } } }] }

/-- A component of the formulation with tags: the formulation is not converted. -/
def withFormulation : BOM :=
  { bomFormat := "CycloneDX", specVersion := 8, version := 1,
    formulation := .list [{ components := .list [{ type := "application", name := "t", tags := .list ["t"] }] }] }

/-- The asserter of a patent: no version declares what is written for it, not even the latest. -/
def withAsserter : BOM :=
  { bomFormat := "CycloneDX", specVersion := 8, version := 1,
    components := .list [{ type := "library", name := "acme", patentAssertions := .list [{ assertionType := "ownership", asserter := some { organization := some { name := "S" } } }] }] }

/-- Ten BOMs with a version for which `EncodeVersion` writes something that its schema does not declare. -/
def leftBehind : List (BOM × Int) :=
  [(onlyNewHash, SpecVersion1_6), (withProperties, SpecVersion1_4), (withSignature, SpecVersion1_3),
   (withServiceTags, SpecVersion1_5), (withAcknowledgement, SpecVersion1_5), (withEvidenceLicense, SpecVersion1_4),
   (withToolComponent, SpecVersion1_5), (withSupplierAddress, SpecVersion1_5), (withFormulation, SpecVersion1_5),
   (withAsserter, SpecVersion1_7)]

set_option maxRecDepth 10000 in
/-- C52 is false without a condition: each of these BOMs is written, and not within the schema. -/
theorem encodeVersion_undeclared : ∀ p ∈ leftBehind, ∃ j, encodeVersionJSON p.1 p.2 = .ok j ∧ ¬ j.Declared p.2 := by
  have key : ∀ p ∈ leftBehind, p.1.ToolsNonEmpty ∧ SpecVersion1_2 ≤ p.2 ∧ (∃ j, encodeJSON p.1 = .ok j) ∧ ¬ p.1.FitsConverted p.2 := by
    have hk : ¬ Known hashAlgorithmSince SpecVersion1_6 "Streebog-256" := by
      rw [← supportsHashAlgorithm_schema]; decide
    simp only [SpecVersion1_6] at hk
    intro p hp
    simp only [leftBehind, List.mem_cons, List.not_mem_nil, or_false] at hp
    rcases hp with rfl | rfl | rfl | rfl | rfl | rfl | rfl | rfl | rfl | rfl
    · refine ⟨by simp [BOM.ToolsNonEmpty, onlyNewHash, PSlice.elems], by decide, ⟨_, rfl⟩, fun h => ?_⟩
      have := h.2.1 _ (List.mem_cons_self ..) [] _ rfl
      simp [Component.OwnFits, HashesFit, PSlice.elems, SpecVersion1_3, SpecVersion1_4, SpecVersion1_5, SpecVersion1_6, SpecVersion1_7, hk] at this
    · exact ⟨by simp [BOM.ToolsNonEmpty, withProperties, PSlice.elems, ToolsChoice.NonEmpty], by decide, ⟨_, rfl⟩, by
        simp [BOM.FitsConverted, withProperties, PSlice.elems, SpecVersion1_3, SpecVersion1_4, SpecVersion1_5, SpecVersion1_6]⟩
    · exact ⟨by simp [BOM.ToolsNonEmpty, withSignature, PSlice.elems, ToolsChoice.NonEmpty], by decide, ⟨_, rfl⟩, by
        simp [BOM.FitsConverted, withSignature, PSlice.elems, SpecVersion1_3, SpecVersion1_4, SpecVersion1_5, SpecVersion1_6]⟩
    · refine ⟨by simp [BOM.ToolsNonEmpty, withServiceTags, PSlice.elems], by decide, ⟨_, rfl⟩, fun h => ?_⟩
      have := h.2.2.1 _ (List.mem_cons_self ..) [] _ rfl
      simp [Service.OwnFits, PSlice.elems, SpecVersion1_4, SpecVersion1_5, SpecVersion1_6, SpecVersion1_7] at this
    · refine ⟨by simp [BOM.ToolsNonEmpty, withAcknowledgement, PSlice.elems], by decide, ⟨_, rfl⟩, fun h => ?_⟩
      have := h.2.1 _ (List.mem_cons_self ..) [] _ rfl
      simp [Component.OwnFits, HashesFit, PSlice.elems, SpecVersion1_3, SpecVersion1_4, SpecVersion1_5, SpecVersion1_6, SpecVersion1_7, LicenseChoice.FitsConverted] at this
    · refine ⟨by simp [BOM.ToolsNonEmpty, withEvidenceLicense, PSlice.elems], by decide, ⟨_, rfl⟩, fun h => ?_⟩
      have := h.2.1 _ (List.mem_cons_self ..) [] _ rfl
      simp [Component.OwnFits, HashesFit, PSlice.elems, SpecVersion1_3, SpecVersion1_4, SpecVersion1_5, SpecVersion1_6, SpecVersion1_7, Evidence.FitsConverted, LicenseChoice.FitsCopied, License.FitsCopied] at this
    · exact ⟨by simp [BOM.ToolsNonEmpty, withToolComponent, PSlice.elems, ToolsChoice.NonEmpty], by decide, ⟨_, rfl⟩, by
        simp [BOM.FitsConverted, withToolComponent, PSlice.elems, SpecVersion1_3, SpecVersion1_4, SpecVersion1_5, SpecVersion1_6, Metadata.FitsConverted, ToolsChoice.FitsConverted, Component.FitsCopied]⟩
    · refine ⟨by simp [BOM.ToolsNonEmpty, withSupplierAddress, PSlice.elems], by decide, ⟨_, rfl⟩, fun h => ?_⟩
      have := h.2.1 _ (List.mem_cons_self ..) [] _ rfl
      simp [Component.OwnFits, HashesFit, PSlice.elems, SpecVersion1_3, SpecVersion1_4, SpecVersion1_5, SpecVersion1_6, SpecVersion1_7, OrganizationalEntity.FitsCopied] at this
    · exact ⟨by simp [BOM.ToolsNonEmpty, withFormulation, PSlice.elems, ToolsChoice.NonEmpty], by decide, ⟨_, rfl⟩, by
        simp [BOM.FitsConverted, withFormulation, PSlice.elems, SpecVersion1_3, SpecVersion1_4, SpecVersion1_5, SpecVersion1_6, Formula.FitsCopied, Component.FitsCopied]⟩
    · refine ⟨by simp [BOM.ToolsNonEmpty, withAsserter, PSlice.elems], by decide, ⟨_, rfl⟩, fun h => ?_⟩
      have := h.2.1 _ (List.mem_cons_self ..) [] _ rfl
      simp [Component.OwnFits, HashesFit, PSlice.elems, SpecVersion1_3, SpecVersion1_4, SpecVersion1_5, SpecVersion1_6, SpecVersion1_7, PatentAssertion.FitsCopied, AsserterChoice.FitsCopied] at this
  intro p hp
  obtain ⟨ht, hv, ⟨j, hj⟩, hn⟩ := key p hp
  obtain ⟨j', hj'⟩ := encodeVersion_total_partial p.1 p.2 j hj ht hv
  exact ⟨j', hj', fun h => hn ((encodeVersion_declared_iff _ _ _ hj').1 h)⟩

end Verif.Props
