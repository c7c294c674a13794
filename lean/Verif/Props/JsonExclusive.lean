import Verif.Spec.JsonExclusive
import Verif.Json.ExclusiveLaws
import Verif.Proofs.ExclusiveConverted
import Verif.Proofs.ExclusiveCopied
import Verif.Props.EncodeVersion
import Verif.Props.JsonSchema

/-! # C87: of the alternatives that the JSON schemas exclude, one is written -/

namespace Verif.Props

set_option linter.unusedSectionVars false
set_option linter.unusedSimpArgs false

variable [FloatIO]

/-- C87 for `Encode`: no object that is written, at any depth, has members that the schema of a version excludes from
each other, exactly if the BOM has values in not more than one of the fields behind them (`BOM.Exclusive`). -/
theorem encode_exclusive_iff (b : BOM) (v : Int) (j : Json) (h : encodeJSON b = .ok j) :
    j.Exclusive v ↔ b.Exclusive v := by
  unfold encodeJSON at h
  split at h
  · cases h
  · split at h
    · cases h
    · rename_i j' hj
      cases h
      exact excl_bom v b j hj

/-- C87 for `EncodeVersion`, exactly: the BOM that is checked is the copied and converted one. -/
theorem encodeVersion_exclusive_iff (b : BOM) (v : Int) (j : Json) (h : encodeVersionJSON b v = .ok j) :
    j.Exclusive v ↔ (copyAndConvert v b).Exclusive v :=
  encode_exclusive_iff _ v j h

/-- The conversion never adds an alternative beside another one: it supplies a version to components, but only where
their version range is removed. -/
theorem convert_exclusive (b : BOM) (v : Int) (hv : SpecVersion1_2 ≤ v) (h : b.Exclusive v) :
    (convert v b).Exclusive v :=
  convert_exclusive_same v hv h

/-- C87 for `EncodeVersion`: of a BOM, whatever it is, that has one of the alternatives of a version,
`EncodeVersion` writes one of them for that version. -/
theorem encodeVersion_exclusive (b : BOM) (v : Int) (j : Json) (hb : b.Exclusive v)
    (h : encodeVersionJSON b v = .ok j) : j.Exclusive v := by
  have hv : SpecVersion1_2 ≤ v := by
    have := ((json_encodes_iff (copyAndConvert v b)).1 ⟨j, h⟩).1
    rwa [copyAndConvert, convert_specVersion] at this
  rw [encodeVersion_exclusive_iff b v j h, copyAndConvert]
  exact convert_exclusive_same v hv (BOM.exclusive_copy v hb)

/-- What is exclusive for the latest version is exclusive for all, except that 1.5 and 1.6 do not allow an expression
in a list of several licenses. -/
theorem exclusive_of_latest (b : BOM) (v : Int) (hv : v ≤ SpecVersion1_4 ∨ v = SpecVersion1_7)
    (hb : b.Exclusive SpecVersion1_7) : b.Exclusive v := by
  refine BOM.exclusive_mono ?_ ?_ hb <;> rcases hv with h | h <;>
    simp only [SpecVersion1_4, SpecVersion1_5, SpecVersion1_6, SpecVersion1_7] at * <;> omega

/-- What is exclusive for 1.6 is exclusive for the versions before it. -/
theorem exclusive_of_1_6 (b : BOM) (v : Int) (hv : v ≤ SpecVersion1_6) (hb : b.Exclusive SpecVersion1_6) :
    b.Exclusive v := by
  refine BOM.exclusive_mono hv ?_ hb
  simp only [SpecVersion1_5, SpecVersion1_6] at *
  omega

/-- C87 for the BOMs that have one of the alternatives of the latest version: `EncodeVersion` writes for each version
but 1.5 and 1.6 a document with one of the alternatives of that version.  Missing: 1.5 and 1.6, where it is false, see
`encodeVersion_mixes_licenses`. -/
theorem encodeVersion_exclusive_partial (b : BOM) (v : Int) (j : Json) (hv : v ≤ SpecVersion1_4 ∨ v = SpecVersion1_7)
    (hb : b.Exclusive SpecVersion1_7) (h : encodeVersionJSON b v = .ok j) : j.Exclusive v :=
  encodeVersion_exclusive b v j (exclusive_of_latest b v hv hb) h

/-! ## A BOM with one of each alternatives -/

/-- A component with a range of versions, and inside it one with a version, licensed by an expression; an annotation by a
service; a citation by pointers; a vulnerability with a range of affected versions; and a task with input. -/
def choiceBOM : BOM :=
  { bomFormat := "CycloneDX", specVersion := 8, version := 1,
    components := .list [{ type := "library", name := "acme", versionRange := "vers:npm/>1",
                           licenses := .list [{ license := some { name := "Own" } }, { license := some { id := "MIT" } }],
                           components := .list [{ type := "file", name := "f", version := "1", licenses := .list [{ expression := "MIT OR ISC", bomRef := "l" }] }] }],
    annotations := .list [{ subjects := .list [⟨"c"⟩], annotator := some { service := some { name := "s" } }, timestamp := "2020", text := "t" }],
    vulnerabilities := .list [{ affects := .list [{ ref := "c", range := .list [{ range := "vers:npm/<2" }, { version := "3" }] }] }],
    formulation := .list [{ workflows := .list [{ inputs := .list [{ resource := some { ref := "r" } }] }] }],
    citations := .list [{ pointers := .list ["/components/0"], timestamp := "2020" }] }

theorem choiceBOM_writable : choiceBOM.Writable := by
  simp [BOM.Writable, choiceBOM, PSlice.elems, Component.Writable, Service.Writable, WritableComponents,
    WritableComponentList, WritablePedigreeOpt, WritableServices, LicenseChoice.Writable, License.Writable,
    Annotation.Writable, Annotator.Writable, Vulnerability.Writable, Formula.Writable]

theorem choiceBOM_exclusive (v : Int) : choiceBOM.Exclusive v := by
  simp [BOM.Exclusive, choiceBOM, PSlice.elems, Component.Exclusive, Service.Exclusive, ExclusiveComponents,
    ExclusiveComponentList, ExclusivePedigreeOpt, ExclusiveServices, LicensesExclusive, LicenseChoice.Exclusive,
    License.Exclusive, Annotation.Exclusive, Annotator.Exclusive, Vulnerability.Exclusive, Affects.Exclusive,
    AffectedVersions.Exclusive, Formula.Exclusive, Workflow.Exclusive, TaskInput.Exclusive,
    ResourceReferenceChoice.Exclusive, Citation.Exclusive]

/-- It is written with one of each for every version. -/
example (v : Int) (hv : SpecVersion1_2 ≤ v) : ∃ j, encodeVersionJSON choiceBOM v = .ok j ∧ j.Exclusive v := by
  obtain ⟨j₀, hj₀⟩ := (json_encodes_iff choiceBOM).2 ⟨by decide, choiceBOM_writable⟩
  obtain ⟨j, hj⟩ := encodeVersion_total_partial choiceBOM v j₀ hj₀
    (by simp [BOM.ToolsNonEmpty, choiceBOM, PSlice.elems]) hv
  exact ⟨j, hj, encodeVersion_exclusive _ _ _ (choiceBOM_exclusive v) hj⟩

/-! ## What is written against the schemas -/

/-- A component under a license and an expression, which 1.7 allows. -/
def mixedLicensesBOM : BOM :=
  { bomFormat := "CycloneDX", specVersion := 8, version := 1,
    components := .list [{ type := "library", name := "acme",
                           licenses := .list [{ license := some { id := "MIT" } }, { expression := "ISC OR MIT" }] }] }

/-- A list of licenses and expressions, which 1.7 allows and 1.5 and 1.6 do not, is written for 1.5 and 1.6 as it is. -/
theorem encodeVersion_mixes_licenses : mixedLicensesBOM.Exclusive SpecVersion1_7 ∧
    ∀ v, SpecVersion1_5 ≤ v → v ≤ SpecVersion1_6 → ∃ j, encodeVersionJSON mixedLicensesBOM v = .ok j ∧ ¬ j.Exclusive v := by
  refine ⟨?_, fun v h5 h6 => ?_⟩
  · simp [BOM.Exclusive, mixedLicensesBOM, PSlice.elems, Component.Exclusive, ExclusiveComponents,
      ExclusivePedigreeOpt, LicensesExclusive, LicenseChoice.Exclusive, License.Exclusive, SpecVersion1_7, SpecVersion1_6]
  · obtain ⟨j₀, hj₀⟩ := (json_encodes_iff mixedLicensesBOM).2 ⟨by decide, by
      simp [BOM.Writable, mixedLicensesBOM, PSlice.elems, Component.Writable, WritableComponents, WritablePedigreeOpt,
        LicenseChoice.Writable, License.Writable]⟩
    obtain ⟨j, hj⟩ := encodeVersion_total_partial mixedLicensesBOM v j₀ hj₀
      (by simp [BOM.ToolsNonEmpty, mixedLicensesBOM, PSlice.elems])
      (by simp only [SpecVersion1_2, SpecVersion1_5] at *; omega)
    refine ⟨j, hj, ?_⟩
    rw [encodeVersion_exclusive_iff _ _ _ hj]
    rintro ⟨-, h, -⟩
    rw [copyAndConvert, convert_components] at h
    have := ((Component.exclusive_iff _ _).1 (h _ List.mem_cons_self)).2.1.1 h5 h6
    rw [recurseComponent_go'] at this
    simp only [Component.mapChildren, componentConverter_licenses] at this
    rw [convertLicenses_eq, if_neg (by simp only [SpecVersion1_1, SpecVersion1_5] at *; omega)] at this
    simp [Component.copy, PSlice.copyWith, PSlice.map, PSlice.elems, LicenseChoice.copy, licenseChoice_eq] at this

/-- An affected version that is given by a version and by a range of versions. -/
def bothVersionsBOM : BOM :=
  { bomFormat := "CycloneDX", specVersion := 8, version := 1,
    vulnerabilities := .list [{ affects := .list [{ ref := "c", range := .list [{ range := "vers:npm/<2", version := "1" }] }] }] }

/-- Alternatives that are both set are both written, by `Encode` and by `EncodeVersion`, without an error. -/
theorem encode_both_alternatives : (∃ j, encodeJSON bothVersionsBOM = .ok j ∧ ¬ j.Exclusive SpecVersion1_7) ∧
    ∃ j, encodeVersionJSON bothVersionsBOM SpecVersion1_7 = .ok j ∧ ¬ j.Exclusive SpecVersion1_7 := by
  obtain ⟨j, hj⟩ := (json_encodes_iff bothVersionsBOM).2 ⟨by decide, by
    simp [BOM.Writable, bothVersionsBOM, PSlice.elems, Vulnerability.Writable]⟩
  obtain ⟨j', hj'⟩ := encodeVersion_total_partial bothVersionsBOM SpecVersion1_7 j hj
    (by simp [BOM.ToolsNonEmpty, bothVersionsBOM, PSlice.elems]) (by decide)
  refine ⟨⟨j, hj, ?_⟩, ⟨j', hj', ?_⟩⟩
  · rw [encode_exclusive_iff _ _ _ hj]
    rintro ⟨-, -, -, -, h, -⟩
    exact (h _ List.mem_cons_self).2 _ List.mem_cons_self _ List.mem_cons_self ⟨by decide, by decide⟩
  · rw [encodeVersion_exclusive_iff _ _ _ hj']
    rintro ⟨-, -, -, -, h, -⟩
    exact (h _ List.mem_cons_self).2 _ List.mem_cons_self _ List.mem_cons_self ⟨by decide, by decide⟩

end Verif.Props
