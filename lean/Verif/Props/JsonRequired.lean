import Verif.Spec.JsonRequired
import Verif.Json.RequiredLaws
import Verif.Proofs.CompleteConverted
import Verif.Props.EncodeVersion
import Verif.Props.JsonSchema

/-! # C64: the members that the JSON schema requires -/

namespace Verif.Props

set_option linter.unusedSectionVars false
set_option linter.unusedSimpArgs false

variable [FloatIO]

/-- C64 for `Encode`: every object that is written, at any depth, has the members that the schema of a version
requires of it exactly if the BOM has a value in each field behind them (`BOM.Complete`). -/
theorem encode_required_iff (b : BOM) (v : Int) (j : Json) (h : encodeJSON b = .ok j) :
    j.Complete v ↔ b.Complete v := by
  unfold encodeJSON at h
  split at h
  · cases h
  · split at h
    · cases h
    · rename_i j' hj
      cases h
      exact comp_bom v b j hj

/-- C64 for `EncodeVersion`, exactly: the BOM that is checked is the copied and converted one. -/
theorem encodeVersion_required_iff (b : BOM) (v : Int) (j : Json) (h : encodeVersionJSON b v = .ok j) :
    j.Complete v ↔ (copyAndConvert v b).Complete v :=
  encode_required_iff _ v j h

/-- The conversion never removes what a version requires, and supplies the version of components where it is
required: of a BOM that has what the latest version requires it makes one that has what version `v` requires. -/
theorem convert_required (b : BOM) (v : Int) (hv : SpecVersion1_2 ≤ v) (h : b.Complete SpecVersion1_7) :
    (convert v b).Complete v :=
  convert_complete v hv h

/-- C64 for the BOMs whose deep copy has what the latest version requires: `EncodeVersion` writes for every version
what that version requires. -/
theorem encodeVersion_required_copied (b : BOM) (v : Int) (j : Json) (hb : b.copy.Complete SpecVersion1_7)
    (h : encodeVersionJSON b v = .ok j) : j.Complete v := by
  have hv : SpecVersion1_2 ≤ v := by
    have := ((json_encodes_iff (copyAndConvert v b)).1 ⟨j, h⟩).1
    rwa [copyAndConvert, convert_specVersion] at this
  rw [encodeVersion_required_iff b v j h, copyAndConvert]
  exact convert_complete v hv hb

/-- C64 for the BOMs that the deep copy keeps as they are: if a BOM has what the latest version requires,
`EncodeVersion` writes for every version what that version requires. -/
theorem encodeVersion_required_partial (b : BOM) (v : Int) (j : Json) (hc : b.Copyable)
    (hb : b.Complete SpecVersion1_7) (h : encodeVersionJSON b v = .ok j) : j.Complete v :=
  encodeVersion_required_copied b v j (by rwa [(copy_eq_iff b).2 hc]) h

/-! ## A BOM that has what is required, though not the version of a component -/

/-- A component without a version with a component with evidence of certainty 1 inside it, a license that is not of the SPDX list,
and an annotation. -/
def requiredBOM : BOM :=
  { bomFormat := "CycloneDX", specVersion := 8, version := 1,
    components := .list [{ type := "library", name := "acme",
                           licenses := .list [{ license := some { name := "Own" } }],
                           components := .list [{ type := "file", name := "f", evidence := some { identity := some { identities := .list [{ field := "purl", methods := .list [{ technique := "other", confidence := some ⟨0x3f800000⟩ }] }] } } }] }],
    annotations := .list [{ subjects := .list [⟨"c"⟩], annotator := some { service := some { name := "s" } }, timestamp := "2020", text := "t" }] }

/-- It can be written. -/
theorem requiredBOM_writable : requiredBOM.Writable := by
  have : F32.Finite ⟨0x3f800000⟩ := by decide +kernel
  simp [BOM.Writable, requiredBOM, PSlice.elems, Component.Writable, Service.Writable, WritableComponents,
    WritableComponentList, WritablePedigreeOpt, WritableServices, LicenseChoice.Writable, License.Writable,
    Evidence.Writable, EvidenceIdentityChoice.Writable, EvidenceIdentity.Writable, EvidenceIdentityMethod.Writable,
    Annotation.Writable, Annotator.Writable]
  exact this

/-- It has what the latest version requires … -/
theorem requiredBOM_complete : requiredBOM.Complete SpecVersion1_7 := by
  simp [BOM.Complete, requiredBOM, PSlice.elems, Component.Complete, Service.Complete, CompleteComponents,
    CompleteComponentList, CompletePedigreeOpt, CompleteServices, LicenseChoice.Complete, License.Complete,
    Evidence.Complete, EvidenceIdentityChoice.Complete, EvidenceIdentity.Complete, EvidenceIdentityMethod.Complete,
    Annotation.Complete, Annotator.Complete, SpecVersion1_3, SpecVersion1_7]

/-- … and is written with all required members for every version. -/
example (v : Int) (hv : SpecVersion1_2 ≤ v) : ∃ j, encodeVersionJSON requiredBOM v = .ok j ∧ j.Complete v := by
  obtain ⟨j₀, hj₀⟩ := (json_encodes_iff requiredBOM).2 ⟨by decide, requiredBOM_writable⟩
  obtain ⟨j, hj⟩ := encodeVersion_total_partial requiredBOM v j₀ hj₀
    (by simp [BOM.ToolsNonEmpty, requiredBOM, PSlice.elems]) hv
  exact ⟨j, hj, encodeVersion_required_partial _ _ _ ((copy_eq_iff _).1 rfl) requiredBOM_complete hj⟩

/-- `Encode` writes the same BOM for version 1.3 without the version of its components, which that schema requires:
only `EncodeVersion` supplies it. -/
theorem encode_lacks_component_version : ∃ j, encodeJSON { requiredBOM with specVersion := 4 } = .ok j ∧
    ¬ j.Complete SpecVersion1_3 := by
  obtain ⟨j, hj⟩ := (json_encodes_iff { requiredBOM with specVersion := 4 }).2 ⟨by decide, requiredBOM_writable⟩
  refine ⟨j, hj, ?_⟩
  rw [encode_required_iff _ _ _ hj]
  rintro ⟨-, h, -⟩
  have := ((Component.complete_iff _ _).1 (h _ List.mem_cons_self)).1
  simp at this

/-! ## What goes missing -/

/-- A component identified by a method that is not certain at all, as the schema requires to say. -/
def uncertainBOM : BOM :=
  { bomFormat := "CycloneDX", specVersion := 8, version := 1,
    components := .list [{ type := "file", name := "f", evidence := some { identity := some { identities := .list [{ field := "purl", methods := .list [{ technique := "other", confidence := some ⟨0⟩ }] }] } } }] }

/-- An annotation with an empty list of subjects, which the schema allows. -/
def noSubjectsBOM : BOM :=
  { bomFormat := "CycloneDX", specVersion := 8, version := 1,
    annotations := .list [{ subjects := .list [], annotator := some { service := some { name := "s" } }, timestamp := "2020", text := "t" }] }

/-- C64 is false without the condition that the deep copy keeps the BOM as it is: each of these BOMs is written by
`Encode` with all required members, and by `EncodeVersion`, for the same version, with one of them missing. -/
theorem encodeVersion_lacks_required : ∀ b ∈ [uncertainBOM, noSubjectsBOM],
    (∃ j, encodeJSON b = .ok j ∧ j.Complete SpecVersion1_7) ∧
    ∃ j, encodeVersionJSON b SpecVersion1_7 = .ok j ∧ ¬ j.Complete SpecVersion1_7 := by
  have hz : F32.Finite ⟨0⟩ := by decide +kernel
  have key : ∀ b ∈ [uncertainBOM, noSubjectsBOM], SpecVersion1_2 ≤ b.specVersion ∧ b.Writable ∧ b.ToolsNonEmpty ∧
      b.Complete SpecVersion1_7 ∧ ¬ (copyAndConvert SpecVersion1_7 b).Complete SpecVersion1_7 := by
    intro b hb
    simp only [List.mem_cons, List.not_mem_nil, or_false] at hb
    rcases hb with rfl | rfl
    · refine ⟨by decide, ?_, by simp [BOM.ToolsNonEmpty, uncertainBOM, PSlice.elems], ?_, ?_⟩
      · simp [BOM.Writable, uncertainBOM, PSlice.elems, Component.Writable, WritableComponents, WritablePedigreeOpt,
          Evidence.Writable, EvidenceIdentityChoice.Writable, EvidenceIdentity.Writable,
          EvidenceIdentityMethod.Writable]
        exact hz
      · simp [BOM.Complete, uncertainBOM, PSlice.elems, Component.Complete, CompleteComponents, CompletePedigreeOpt,
          Evidence.Complete, EvidenceIdentityChoice.Complete, EvidenceIdentity.Complete,
          EvidenceIdentityMethod.Complete, SpecVersion1_3, SpecVersion1_7]
      · rintro ⟨-, h, -⟩
        have := ((Component.complete_iff _ _).1 (h _ List.mem_cons_self)).2.2.2.1 _ rfl
        have := (this.1 _ rfl).2 _ List.mem_cons_self
        exact (this.2 _ List.mem_cons_self).2 rfl
    · refine ⟨by decide, ?_, by simp [BOM.ToolsNonEmpty, noSubjectsBOM, PSlice.elems], ?_, ?_⟩
      · simp [BOM.Writable, noSubjectsBOM, PSlice.elems, Annotation.Writable, Annotator.Writable, Service.Writable,
          WritableServices]
      · simp [BOM.Complete, noSubjectsBOM, PSlice.elems, Annotation.Complete, Annotator.Complete, Service.Complete,
          CompleteServices]
      · rintro ⟨-, -, -, -, -, h, -⟩
        exact (h _ List.mem_cons_self).1 rfl
  intro b hb
  obtain ⟨hv, hw, ht, hc, hn⟩ := key b hb
  obtain ⟨j, hj⟩ := (json_encodes_iff b).2 ⟨hv, hw⟩
  obtain ⟨j', hj'⟩ := encodeVersion_total_partial b SpecVersion1_7 j hj ht (by decide)
  exact ⟨⟨j, hj, (encode_required_iff b _ j hj).2 hc⟩, ⟨j', hj', fun h => hn ((encodeVersion_required_iff b _ j' hj').1 h)⟩⟩

/-- A BOM with a signature of one signer whose key is not given, as the schema allows. -/
def keylessBOM : BOM :=
  { bomFormat := "CycloneDX", specVersion := 8, version := 1,
    signature := some { signers := .list [{ algorithm := "HS256", value := "AA==" }] } }

set_option maxRecDepth 10000 in
/-- A signer without a public key is written with an empty key, which lacks its required type. -/
theorem encode_empty_key : ∃ j, encodeJSON keylessBOM = .ok j ∧ ¬ j.Complete SpecVersion1_7 := by
  refine ⟨_, rfl, ?_⟩
  rw [encode_required_iff keylessBOM _ _ rfl]
  rintro ⟨-, -, -, -, -, -, -, -, -, -, h⟩
  exact (h _ rfl).1 _ List.mem_cons_self rfl

end Verif.Props
