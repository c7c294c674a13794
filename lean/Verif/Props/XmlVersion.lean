import Verif.Props.Xml
import Verif.Props.EncodeVersion
import Verif.Proofs.PreserveXml

/-! # C50, and C30, C31, C40, C43, C44 for XML: what can be written as XML, and `EncodeVersion` -/

namespace Verif.Props

open Xml (sanitize)

set_option linter.unusedSectionVars false

variable [XFloatIO]

/-! ## C50 -/

/-- C50: exactly the BOMs without ambiguous licenses, choices and tools can be written as XML; the version does not
matter. -/
theorem xml_encodes_iff (b : BOM) : (∃ doc, encodeXML b = some doc) ↔ b.XWritable := by
  rw [← xw_bom "bom" b]
  unfold encodeXML
  constructor
  · rintro ⟨doc, h⟩
    split at h
    · rename_i hr; rw [hr]; rfl
    · cases h
  · intro h
    obtain ⟨o, ho⟩ := Option.isSome_iff_exists.1 h
    obtain ⟨root, rfl⟩ : ∃ root, o = some root := by
      have : ((XCodec.struct X.bomFields BOM.toP BOM.ofP).enc "bom" b) = some o := ho
      simp only [XCodec.struct] at this
      obtain ⟨ks, -, rfl⟩ := Option.map_eq_some_iff.1 this
      exact ⟨_, rfl⟩
    rw [ho]
    exact ⟨_, rfl⟩

theorem goInts_good {b : BOM} (h : b.GoInts) : X.bom.good b.xmlPart := xg_bom (x := b.xmlPart) h

/-- C50: whatever is written as XML is read again without an error. -/
theorem xml_output_decodes (order : List (Int × String)) (b : BOM) (doc : XmlDoc) (h : encodeXML b = some doc)
    (hi : b.GoInts) : ∃ b', decodeXML order doc {} = some b' := ⟨_, xml_reads_norm h (goInts_good hi)⟩

/-- C40: a BOM is read back unchanged exactly if it uses only what XML can represent. -/
theorem xml_round_trip_iff (order : List (Int × String)) (hp : order.Perm xmlNamespaces) (b : BOM) (doc : XmlDoc)
    (h : encodeXML b = some doc) (hi : b.GoInts) : decodeXML order doc {} = some (asXML b) ↔ b.XPlain :=
  ⟨xml_round_trip_only order hp b doc h (goInts_good hi), xml_round_trip order hp b doc h⟩

/-- A license with an identifier and a name. -/
def doublyNamed : BOM :=
  { xmlns := "http://cyclonedx.org/schema/bom/1.7", specVersion := 8, version := 1,
    components := .list [{ type := "library", name := "acme", licenses := .list [{ license := some { id := "MIT", name := "MIT" } }] }] }

omit [XFloatIO] in
/-- Both sides of `xml_encodes_iff` occur. -/
example : exampleXML.XWritable ∧ ¬ doublyNamed.XWritable := by
  constructor
  · simp [exampleXML, newBOM, BOM.XWritable, PSlice.elems, Metadata.XWritable, ToolsChoice.XWritable, Component.XWritable,
      XWritableComponentList, XWritableComponents, XWritablePedigreeOpt, LicenseChoice.XWritable, License.XWritable,
      Evidence.XWritable]
  · simp [doublyNamed, BOM.XWritable, PSlice.elems, Component.XWritable,
      XWritableComponents, XWritablePedigreeOpt, LicenseChoice.XWritable, License.XWritable]

omit [XFloatIO] in
theorem exampleXML_goInts : exampleXML.GoInts := by
  simp [exampleXML, newBOM, BOM.GoInts, PSlice.elems, Metadata.GoInts, ToolsChoice.GoInts, Component.GoInts,
      GoIntsComponentList, GoIntsComponents, GoIntsPedigreeOpt, Evidence.GoInts]
  decide

set_option maxRecDepth 10000 in
/-- A case of `xml_output_decodes` and `xml_round_trip_iff`. -/
example : exampleXML.GoInts ∧ ∃ doc, encodeXML exampleXML = some doc := ⟨exampleXML_goInts, _, rfl⟩

/-! ## C44 for XML -/

/-- C44 for XML: what can be written as XML in some version, can be written in every version. -/
theorem encodeVersionXML_total (b : BOM) (v : Int) (doc : XmlDoc) (h : encodeXML b = some doc) :
    ∃ doc', encodeVersionXML b v = some doc' :=
  (xml_encodes_iff _).2 (convert_xwritable v (BOM.copy_xwritable ((xml_encodes_iff b).1 ⟨doc, h⟩)))

/-- C44 for XML: the empty choice of tools that stops `EncodeVersion` for JSON
(`encodeVersion_fails_on_empty_tools`) does not stop it for XML. -/
theorem encodeVersionXML_empty_tools (v : Int) : ∃ doc, encodeVersionXML noTools v = some doc := by
  have h : noTools.XWritable := by
    simp [noTools, BOM.XWritable, PSlice.elems, Metadata.XWritable, ToolsChoice.XWritable]
  obtain ⟨doc, hd⟩ := (xml_encodes_iff _).2 h
  exact encodeVersionXML_total noTools v doc hd

/-! ## C31 and C30 for XML -/

theorem mapGet_namespace (k : Nat) (hk : k ≤ 7) : mapGet xmlNamespaces (k + 1) = namespaceOf k := by
  have : ∀ k ∈ List.range 8, mapGet xmlNamespaces (k + 1) = namespaceOf k := by decide +kernel
  exact this k (by simp; omega)

theorem sanitize_namespace (k : Nat) (hk : k ≤ 7) : sanitize (namespaceOf k) = namespaceOf k := by
  have : ∀ k ∈ List.range 8, sanitize (namespaceOf k) = namespaceOf k := by decide +kernel
  exact this k (by simp; omega)

/-- C31 for XML: the document written by `EncodeVersion` in version 1.k is in the namespace of that version, whatever
the BOM's own namespace and version are. -/
theorem encodeVersionXML_reports (b : BOM) (k : Nat) (hk : k ≤ 7) (doc : XmlDoc)
    (h : encodeVersionXML b (k + 1) = some doc) : doc.space = namespaceOf k := by
  rw [(encodeXML_some h).1, copyAndConvert, convert_xmlns, mapGet_namespace k hk, sanitize_namespace k hk]

/-- C31 for XML, for BOMs equal to their copy: `EncodeVersion` is `Encode` of the converted BOM. -/
theorem encodeVersionXML_eq_encode_convert (b : BOM) (v : Int) (h : b.Copyable) :
    encodeVersionXML b v = encodeXML (convert v b) := by
  rw [encodeVersionXML, copyAndConvert, (BOM.copy_eq b).2 h]

/-- C31 for XML: encoding in a version depends on nothing but the copy. -/
theorem encodeVersionXML_copy (b : BOM) (v : Int) : encodeVersionXML b.copy v = encodeVersionXML b v := by
  rw [encodeVersionXML, encodeVersionXML, copyAndConvert, copyAndConvert, BOM.copy_idem]

/-- C31 for XML: for a BOM with the version stamps that `NewBOM` sets, `EncodeVersion` to 1.7 is `Encode`,
if the BOM is equal to its copy and its enumeration values are those of the specification. -/
theorem encodeVersionXML_latest (b : BOM) (h : b.Copyable) (hl : LatestDocument b)
    (h1 : b.xmlns = "http://cyclonedx.org/schema/bom/1.7") :
    encodeVersionXML b SpecVersion1_7 = encodeXML b := by
  rw [encodeVersionXML_eq_encode_convert b _ h, convert_latest_partial b hl]
  cases b
  simp only at h1
  subst h1
  rfl

/-! ## C43 for XML -/

/-- C43 for XML: what `EncodeVersion` writes in version 1.k is read without an error, and the BOM that is read reports
this version and its namespace. -/
theorem encodeVersionXML_decodes (order : List (Int × String)) (hp : order.Perm xmlNamespaces) (b : BOM) (k : Nat)
    (hk : k ≤ 7) (doc : XmlDoc) (hi : b.GoInts) (h : encodeVersionXML b (k + 1) = some doc) :
    ∃ b', decodeXML order doc {} = some b' ∧ b'.specVersion = k + 1 ∧ b'.xmlns = namespaceOf k := by
  have hi' : (copyAndConvert (k + 1) b).GoInts := convert_goInts _ (BOM.copy_goInts hi)
  refine ⟨_, xml_reads_norm h (goInts_good hi'), ?_⟩
  have hx : ∀ c : BOM, (X.bom.norm c.xmlPart).xmlns = sanitize c.xmlns := fun _ => rfl
  have hns : (X.bom.norm (copyAndConvert (k + 1) b).xmlPart).xmlns = namespaceOf k := by
    rw [hx, copyAndConvert, convert_xmlns, mapGet_namespace k hk, sanitize_namespace k hk]
  generalize X.bom.norm (copyAndConvert (k + 1) b).xmlPart = m at hns ⊢
  have := versionOfNamespace_known hp (b := { m with xmlName := ⟨sanitize (copyAndConvert (k + 1) b).xmlns, "bom"⟩ }) hk hns
  simp only at this ⊢
  rw [this]
  exact ⟨rfl, hns⟩

/-- C43 for XML: if the converted BOM uses only what XML can represent, it is what is read. -/
theorem encodeVersionXML_decodes_converted (order : List (Int × String)) (hp : order.Perm xmlNamespaces) (b : BOM)
    (k : Nat) (hk : k ≤ 7) (doc : XmlDoc) (h : encodeVersionXML b (k + 1) = some doc)
    (hx : (convert (k + 1) b.copy).XPlain) :
    decodeXML order doc {} = some (asXML (convert (k + 1) b.copy)) ∧
      (asXML (convert (k + 1) b.copy)).specVersion = k + 1 := by
  have h1 := xml_round_trip order hp _ doc h hx
  refine ⟨h1, ?_⟩
  show namespaceVersion (convert (k + 1) b.copy).xmlns = k + 1
  rw [convert_xmlns, mapGet_namespace k hk]
  have : ∀ k ∈ List.range 8, namespaceVersion (namespaceOf k) = k + 1 := by decide +kernel
  exact this k (by simp; omega)

set_option maxRecDepth 10000 in
/-- A case of these theorems: a BOM with tools and nested components, written in version 1.4. -/
example : usualBOM.GoInts ∧ (convert SpecVersion1_4 usualBOM.copy).XPlain ∧
    ∃ doc, encodeVersionXML usualBOM SpecVersion1_4 = some doc := by
  have hc : usualBOM.copy = usualBOM := rfl
  refine ⟨?_, ?_, ?_⟩
  · simp [usualBOM, usualComponent, usualInner, BOM.GoInts, PSlice.elems, Metadata.GoInts, ToolsChoice.GoInts, Component.GoInts,
      GoIntsComponentList, GoIntsComponents, GoIntsPedigreeOpt, Evidence.GoInts]
    decide
  · rw [hc, usual_converted]
    simp [usualConverted, usualComponent, usualInner, BOM.XPlain, PSlice.XEach, Metadata.XPlain, ToolsChoice.XPlain, Tool.XPlain,
      Component.XPlain, XPlainComponentList, XPlainComponents, XPlainPedigreeOpt, LicenseChoice.XPlain, License.XPlain, Hash.XPlain]
    decide +kernel
  · rw [encodeVersionXML, copyAndConvert, hc, usual_converted]
    exact ⟨_, rfl⟩

end Verif.Props
