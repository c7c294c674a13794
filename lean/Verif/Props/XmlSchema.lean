import Verif.Spec.XmlSchema
import Verif.Xml.FitsLaws
import Verif.Props.XmlVersion
import Verif.Props.JsonSchema
import Verif.Proofs.XFitsConverted

/-! # C53: what is written as XML and the structure that the XML schemas declare -/

namespace Verif.Props

open Xml (sanitize)

set_option linter.unusedSectionVars false
set_option linter.unusedSimpArgs false

variable [XFloatIO]

/-- C53 for `Encode`: the document has the structure of the schema of a version exactly if the BOM is in the namespace
of this version and has nothing that is written in another way than the schema declares, at any depth
(`BOM.XFits`). -/
theorem encodeXML_valid_iff (b : BOM) (v : Int) (doc : XmlDoc) (h : encodeXML b = some doc) :
    doc.Valid v ↔ some (sanitize b.xmlns) = schemaNamespace v ∧ b.XFits v := by
  unfold encodeXML at h
  split at h
  · rename_i root hr
    cases h
    obtain ⟨-, hf⟩ := xfit_bom v "bom" b _ hr
    obtain ⟨h1, h2⟩ := hf root rfl
    simp only [XmlDoc.Valid, h1, h2, true_and]
  · cases h

omit [XFloatIO] in
theorem schemaNamespace_eq (k : Nat) (hk : k ≤ 7) : schemaNamespace (k + 1) = some (namespaceOf k) := by
  have : ∀ k ∈ List.range 8, schemaNamespace (k + 1) = some (namespaceOf k) := by decide +kernel
  exact this k (by simp; omega)

/-- C53 for `EncodeVersion`: the document written in version 1.k has the structure of the schema of this version
exactly if the converted copy of the BOM has nothing that is written in another way. -/
theorem encodeVersionXML_valid_iff (b : BOM) (k : Nat) (hk : k ≤ 7) (doc : XmlDoc)
    (h : encodeVersionXML b (k + 1) = some doc) : doc.Valid (k + 1) ↔ (convert (k + 1) b.copy).XFits (k + 1) := by
  rw [encodeXML_valid_iff _ _ doc h, copyAndConvert, convert_xmlns, mapGet_namespace k hk, sanitize_namespace k hk,
    schemaNamespace_eq k hk]
  simp

/-- C53 for `EncodeVersion`, in terms of what the caller hands over: the document has the structure of the schema
exactly if the BOM, as it is copied, has none of the contents that the conversion leaves behind and none of those
that are written in another way than the schema declares (`BOM.XFitsConverted`, a list of them). -/
theorem encodeVersionXML_valid_iff_converted (b : BOM) (k : Nat) (hk : k ≤ 7) (doc : XmlDoc)
    (h : encodeVersionXML b (k + 1) = some doc) : doc.Valid (k + 1) ↔ b.copy.XFitsConverted (k + 1) := by
  rw [encodeVersionXML_valid_iff b k hk doc h]
  exact XFitsConverted.bom (by simp only [SpecVersion1_0]; omega) b.copy

/-- The same for the BOMs that the copy does not change. -/
theorem encodeVersionXML_valid_iff_copyable (b : BOM) (hc : b.Copyable) (k : Nat) (hk : k ≤ 7) (doc : XmlDoc)
    (h : encodeVersionXML b (k + 1) = some doc) : doc.Valid (k + 1) ↔ b.XFitsConverted (k + 1) := by
  rw [encodeVersionXML_valid_iff_converted b k hk doc h, (copy_eq_iff b).2 hc]

/-- C53, for the BOMs that have nothing of what is left behind or written in another way. -/
theorem encodeVersionXML_valid_partial (b : BOM) (k : Nat) (hk : k ≤ 7) (doc : XmlDoc)
    (h : encodeVersionXML b (k + 1) = some doc) (hf : b.copy.XFitsConverted (k + 1)) : doc.Valid (k + 1) :=
  (encodeVersionXML_valid_iff_converted b k hk doc h).2 hf

/-! ## A BOM that is written within the schema of every version -/

/-- A component with much of what later versions added, and others inside it and in its pedigree. -/
def richXComponent : Component :=
  { bomRef := "c", mimeType := "text/plain", type := "library", name := "acme", version := "1", scope := "excluded",
    hashes := .list [{ algorithm := "SHA-256", value := "00" }, { algorithm := "Streebog-256", value := "01" }],
    licenses := .list [{ license := some { id := "MIT", bomRef := "l", acknowledgement := "declared", licensing := some { purchaseOrder := "7", licensor := some { organization := some { bomRef := "o", name := "ACME" } } } } }, { license := some { name := "own" } }],
    swid := some { tagID := "t", name := "n" },
    omniborID := .list ["gitoid:blob:sha1:a"], tags := .list ["a"], properties := .list [{ name := "k", value := "v" }],
    manufacturer := some { bomRef := "m", name := "ACME", address := some { country := "AT" } },
    authors := .list [{ bomRef := "a", name := "A" }],
    externalReferences := .list [{ url := "https://example.com", type := "patent", hashes := .list [{ algorithm := "MD5", value := "0" }], properties := .list [{ name := "k", value := "v" }] }],
    releaseNotes := some { type := "major" }, data := .list [{ type := "dataset" }],
    evidence := some { identity := some { identities := .list [{ field := "purl", concludedValue := "x" }] }, occurrences := .list [{ location := "a.c" }], copyright := .list [{ text := "ACME" }] },
    cryptoProperties := some { assetType := "algorithm", algorithmProperties := some { primitive := "ae", parameterSetIdentifier := "128" } },
    components := .list [{ type := "file", name := "f", versionRange := "vers:npm/1.0" }],
    pedigree := some { ancestors := .list [{ type := "file", name := "g", patentAssertions := .list [{ bomRef := "p", assertionType := "ownership", asserter := some { organization := some { name := "S" } } }] }] } }

/-- A BOM of version 1.7 with this component, a service, dependencies, vulnerabilities and annotations. -/
def richXBOM : BOM :=
  { xmlns := "http://cyclonedx.org/schema/bom/1.7", specVersion := 8, version := 1, serialNumber := "urn:uuid:0",
    metadata := some { timestamp := "2020", lifecycles := .list [{ phase := "build" }], tools := some { components := .list [{ type := "application", name := "t" }] }, component := some richXComponent, manufacturer := some { bomRef := "m", name := "ACME" }, licenses := .list [{ expression := "MIT" }], properties := .list [{ name := "k", value := "v" }] },
    components := .list [richXComponent],
    services := .list [{ bomRef := "s", name := "s", provider := some { name := "P", address := some { country := "AT" } }, releaseNotes := some { type := "major" } }],
    dependencies := .list [{ ref := "c", provides := .list ["d"] }],
    vulnerabilities := .list [{ bomRef := "v", workaround := "w", rejected := "2020", credits := some { organizations := .list [{ name := "A", address := some { country := "AT" } }] } }],
    annotations := .list [{ annotator := some { individual := some { name := "A" } }, timestamp := "2020", text := "t" }] }

set_option maxRecDepth 10000 in
omit [XFloatIO] in
theorem richXBOM_copyable : richXBOM.Copyable := (copy_eq_iff _).1 rfl

omit [XFloatIO] in
theorem version_cases (k : Nat) (hk : k ≤ 7) :
    k = 0 ∨ k = 1 ∨ k = 2 ∨ k = 3 ∨ k = 4 ∨ k = 5 ∨ k = 6 ∨ k = 7 := by omega

omit [XFloatIO] in
/-- Each of the three components has none of the contents that are left behind or written in another way. -/
theorem richXComponent_fits (k : Nat) (hk : k ≤ 7) : richXComponent.XFitsConverted (k + 1) := by
  have own : ∀ c : Component, c.XFitsConverted (k + 1) ↔ c.XOwnFits (k + 1) ∧ ∀ d ∈ c.children, d.XFitsConverted (k + 1) :=
    fun c => FitsConverted.walk_all c
  have leaf : ∀ c : Component, c.children = [] → c.XOwnFits (k + 1) → c.XFitsConverted (k + 1) := by
    intro c h h'
    rw [own, h]
    simp [h']
  rw [own]
  refine ⟨?_, ?_⟩
  · rcases version_cases k hk with rfl | rfl | rfl | rfl | rfl | rfl | rfl | rfl <;>
    simp [richXComponent, Component.XOwnFits, PSlice.elems, XFitsLicensesConverted, License.XFitsConverted,
      Evidence.XFitsConverted, MLModelCard.XFitsConverted, CryptoProperties.XFitsConverted, ComponentData.XFits,
      SWID.XFits, OneParty, SpecVersion1_1, SpecVersion1_2, SpecVersion1_3, SpecVersion1_5, SpecVersion1_6, SpecVersion1_7,
      CryptoProperties.XFits, CryptoAlgorithmProperties.XFits, EvidenceOccurrence.XFits, EvidenceIdentity.XFits,
      Evidence.writtenIdentities, XFitsLicenses]
  · simp only [richXComponent, Component.children, PSlice.elems, Pedigree.relatives, List.cons_append, List.nil_append,
      List.append_nil, List.mem_cons, List.not_mem_nil, or_false, forall_eq_or_imp, forall_eq]
    refine ⟨leaf _ rfl ?_, leaf _ rfl ?_⟩ <;>
    · rcases version_cases k hk with rfl | rfl | rfl | rfl | rfl | rfl | rfl | rfl <;>
      simp [Component.XOwnFits, PSlice.elems, XFitsLicensesConverted, SpecVersion1_1, SpecVersion1_2, SpecVersion1_5,
        SpecVersion1_6, SpecVersion1_7, Component.NothingAfterVersion, Component.NothingAfterPatents,
        PatentAssertion.XFits, AsserterChoice.XFits, AsserterChoice.XWritten, OrganizationalEntity.XFits]

omit [XFloatIO] in
/-- Nor has the BOM. -/
theorem richXBOM_fits (k : Nat) (hk : k ≤ 7) : richXBOM.XFitsConverted (k + 1) := by
  have hr := richXComponent_fits k hk
  have hs : ∀ s ∈ richXBOM.services.elems, s.XFitsConverted (k + 1) := by
    intro s h
    simp only [richXBOM, PSlice.elems, List.mem_singleton] at h
    subst h
    refine (FitsConverted.walkService_all _).2 ⟨?_, by simp [Service.children, PSlice.elems]⟩
    rcases version_cases k hk with rfl | rfl | rfl | rfl | rfl | rfl | rfl | rfl <;>
    simp [Service.XOwnFits, PSlice.elems, SpecVersion1_5, SpecVersion1_6, SpecVersion1_7, XFitsLicenses]
  have hc : ∀ c ∈ richXBOM.components.elems, c.XFitsConverted (k + 1) := by
    simpa [richXBOM, PSlice.elems] using hr
  refine ⟨?_, ?_, hc, fun _ => hs, ?_⟩
  all_goals
    rcases version_cases k hk with rfl | rfl | rfl | rfl | rfl | rfl | rfl | rfl <;>
    simp [richXBOM, hr, PSlice.elems, Metadata.XFitsConverted, Lifecycle.XFits, ToolsChoice.XFitsConverted,
      Vulnerability.XFitsConverted, Annotator.XFitsConverted, Component.XFits, XFitsLicensesConverted, XFitsLicenses, XFitsComponents, XFitsPedigreeOpt,
      SpecVersion1_0, SpecVersion1_1, SpecVersion1_2, SpecVersion1_3, SpecVersion1_4, SpecVersion1_5, SpecVersion1_6, SpecVersion1_7] at hr ⊢ <;> try exact hr

set_option maxRecDepth 10000 in
example (k : Nat) (hk : k ≤ 7) : ∃ doc, encodeVersionXML richXBOM (k + 1) = some doc ∧ doc.Valid (k + 1) := by
  obtain ⟨doc, hd⟩ := encodeVersionXML_total richXBOM (k + 1) _ rfl
  exact ⟨doc, hd, (encodeVersionXML_valid_iff_copyable _ richXBOM_copyable k hk doc hd).2 (richXBOM_fits k hk)⟩

/-! ## What is not written as the schema declares -/

/-- A BOM of version 1.7 with one component. -/
def oneComponent (c : Component) : BOM :=
  { xmlns := "http://cyclonedx.org/schema/bom/1.7", specVersion := 8, version := 1, components := .list [c] }

/-- Components that the latest schema allows, but which are written in another way. -/
def misplaced : List Component :=
  [ -- an attribute written as an element
    { type := "library", name := "acme", isExternal := some true },
    -- an element written as an attribute
    { type := "library", name := "acme", swid := some { tagID := "t", name := "n", url := "https://example.com" } },
    -- four elements written as attributes
    { type := "library", name := "acme", evidence := some { occurrences := .list [{ location := "a.c", line := some 3 }] } },
    -- two elements in the wrong order
    { type := "library", name := "acme", author := "A", authors := .list [{ name := "B" }] },
    -- an element behind those that have to follow it
    { type := "library", name := "acme", versionRange := "vers:npm/1.0", description := "d" },
    -- an element in place of a text
    { type := "library", name := "acme", cryptoProperties := some { assetType := "related-crypto-material", relatedCryptoMaterialProperties := some { algorithmRef := ⟨"a"⟩ } } },
    -- an element called otherwise
    { type := "data", name := "acme", data := .list [{ type := "dataset", governance := some { owners := .list [{ contact := some { name := "A" } }] } }] } ]

omit [XFloatIO] in
theorem oneComponent_xfits (v : Int) (c : Component) (h : (oneComponent c).XFits v) : c.XFits v := by
  obtain ⟨-, -, h, -⟩ := h
  rcases h with ⟨-, -, h⟩ | ⟨-, h⟩ <;> exact h c (by simp [oneComponent, PSlice.elems])

/-- C53 is false without a condition, even for the latest version: each of these BOMs is written, and not with the
structure of the schema. -/
theorem encodeXML_misplaced :
    ∀ c ∈ misplaced, ∃ doc, encodeXML (oneComponent c) = some doc ∧ ¬ doc.Valid SpecVersion1_7 := by
  have key : ∀ c ∈ misplaced, (oneComponent c).XWritable ∧ ¬ c.XFits SpecVersion1_7 := by
    intro c hc
    simp only [misplaced, List.mem_cons, List.not_mem_nil, or_false] at hc
    rcases hc with rfl | rfl | rfl | rfl | rfl | rfl | rfl
    all_goals
      refine ⟨?_, ?_⟩
      · simp [oneComponent, BOM.XWritable, PSlice.elems, Component.XWritable, XWritableComponentList,
          XWritableComponents, XWritablePedigreeOpt, Evidence.XWritable, CryptoProperties.XWritable]
      · simp [Component.XFits, SWID.XFits, Evidence.XFits, EvidenceOccurrence.XFits, PSlice.elems, Evidence.XWritten,
          CryptoProperties.XFits, RelatedCryptoMaterialProperties.XFits, ComponentData.XFits, DataGovernance.XFits,
          ComponentDataGovernanceResponsibleParty.XFits, SpecVersion1_7]
  intro c hc
  obtain ⟨hw, hn⟩ := key c hc
  obtain ⟨doc, hd⟩ := (xml_encodes_iff _).2 hw
  exact ⟨doc, hd, fun h => hn (oneComponent_xfits _ c ((encodeXML_valid_iff _ _ doc hd).1 h).2)⟩

/-! ## What the conversion leaves behind -/

/-- A BOM without components: the first two schemas require a list of them. -/
def withoutComponents : BOM := { specVersion := 8, version := 1 }

/-- Two license expressions: up to version 1.6 only one may be given. -/
def withTwoExpressions : BOM :=
  { specVersion := 8, version := 1, components := .list [{ type := "library", name := "acme", licenses := .list [{ expression := "MIT" }, { expression := "Apache-2.0" }] }] }

/-- A license beside an expression. -/
def withMixedLicenses : BOM :=
  { specVersion := 8, version := 1, components := .list [{ type := "library", name := "acme", licenses := .list [{ expression := "MIT" }, { license := some { id := "Apache-2.0" } }] }] }

/-- The data of a service: below version 1.5 the schemas declare another element for it. -/
def withServiceData : BOM :=
  { specVersion := 8, version := 1, services := .list [{ name := "s", data := .list [{ flow := "inbound", classification := "PII" }] }] }

/-- Two users of a model: both are put into one element, which holds only one. -/
def withTwoUsers : BOM :=
  { specVersion := 8, version := 1, components := .list [{ type := "machine-learning-model", name := "m", modelCard := some { considerations := some { users := .list ["a", "b"] } } }] }

/-- Twelve BOMs with a version for which `EncodeVersion` writes something that its schema does not allow. -/
def leftBehindXML : List (BOM × Nat) :=
  [(withoutComponents, 1), (withProperties, 2), (withTwoExpressions, 6), (withMixedLicenses, 6), (withAcknowledgement, 5),
   (withServiceTags, 5), (withServiceData, 4), (withToolComponent, 5), (withSupplierAddress, 5), (withFormulation, 5),
   (withEvidenceLicense, 4), (withTwoUsers, 7)]

set_option maxRecDepth 10000 in
/-- C53 is false without a condition for `EncodeVersion`: each of these BOMs is written, and not with the structure
of the schema. -/
theorem encodeVersionXML_invalid :
    ∀ p ∈ leftBehindXML, ∃ doc, encodeVersionXML p.1 (p.2 + 1) = some doc ∧ ¬ doc.Valid (p.2 + 1) := by
  have key : ∀ p ∈ leftBehindXML, p.2 ≤ 7 ∧ (∃ doc, encodeXML p.1 = some doc) ∧ p.1.Copyable ∧
      ¬ p.1.XFitsConverted (p.2 + 1) := by
    intro p hp
    simp only [leftBehindXML, List.mem_cons, List.not_mem_nil, or_false] at hp
    rcases hp with rfl | rfl | rfl | rfl | rfl | rfl | rfl | rfl | rfl | rfl | rfl | rfl
    all_goals refine ⟨by decide, ⟨_, rfl⟩, (copy_eq_iff _).1 rfl, fun h => ?_⟩
    · have := h.2.1; simp [withoutComponents, SpecVersion1_2] at this
    · have := h.2.2.2.2.1; simp [withProperties, SpecVersion1_3] at this
    · have := h.2.2.1 _ (List.mem_cons_self ..) [] _ rfl
      simp [Component.XOwnFits, XFitsLicensesConverted, PSlice.elems, SpecVersion1_1, SpecVersion1_6, SpecVersion1_7] at this
    · have := h.2.2.1 _ (List.mem_cons_self ..) [] _ rfl
      simp [Component.XOwnFits, XFitsLicensesConverted, PSlice.elems, SpecVersion1_1, SpecVersion1_6, SpecVersion1_7] at this
    · have := h.2.2.1 _ (List.mem_cons_self ..) [] _ rfl
      simp [Component.XOwnFits, XFitsLicensesConverted, PSlice.elems, SpecVersion1_1, SpecVersion1_6, SpecVersion1_7] at this
    · have := h.2.2.2.1 (by decide) _ (List.mem_cons_self ..) [] _ rfl
      simp [Service.XOwnFits, PSlice.elems, SpecVersion1_5, SpecVersion1_6, SpecVersion1_7] at this
    · have := h.2.2.2.1 (by decide) _ (List.mem_cons_self ..) [] _ rfl
      simp [Service.XOwnFits, PSlice.elems, SpecVersion1_5, SpecVersion1_6, SpecVersion1_7] at this
    · have := (h.1 (by decide) _ rfl).2.1 _ rfl (by decide)
      simp [Component.XFits, PSlice.elems, SpecVersion1_6] at this
    · have := h.2.2.1 _ (List.mem_cons_self ..) [] _ rfl
      simp [Component.XOwnFits, OrganizationalEntity.XFits, SpecVersion1_2, SpecVersion1_6] at this
    · have := h.2.2.2.2.2.2.2.1 (by decide) _ (List.mem_cons_self ..)
      simp [Formula.XFits, Component.XFits, PSlice.elems, SpecVersion1_6] at this
    · have := h.2.2.1 _ (List.mem_cons_self ..) [] _ rfl
      simp [Component.XOwnFits, Evidence.XFitsConverted, XFitsLicenses, License.XFits, LicenseChoice.XFits, PSlice.elems, SpecVersion1_1, SpecVersion1_3, SpecVersion1_5, SpecVersion1_6, SpecVersion1_7] at this
    · have := h.2.2.1 _ (List.mem_cons_self ..) [] _ rfl
      simp [Component.XOwnFits, MLModelCard.XFitsConverted, PSlice.elems, SpecVersion1_5, SpecVersion1_6, SpecVersion1_7] at this
  intro p hp
  obtain ⟨hk, ⟨doc, hd⟩, hc, hn⟩ := key p hp
  obtain ⟨doc', hd'⟩ := encodeVersionXML_total p.1 (p.2 + 1) doc hd
  exact ⟨doc', hd', fun h => hn ((encodeVersionXML_valid_iff_copyable _ hc p.2 hk doc' hd').1 h)⟩

end Verif.Props
