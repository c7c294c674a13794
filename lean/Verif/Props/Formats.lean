import Verif.Props.EncodeVersion
import Verif.Props.XmlVersion

/-!
# C60: from one format to the other
-/

namespace Verif.Props

set_option linter.unusedSectionVars false

/-- What a BOM holds apart from what only one of the formats has (the namespace and name of the root element in XML;
the schema, the format and the signature in JSON) and from the version of the specification. -/
def contents (b : BOM) : BOM :=
  { b with xmlName := {}, xmlns := "", jsonSchema := "", bomFormat := "", specVersion := 0, signature := none }

section
variable [FloatIO]

theorem json_skip_dec {α β : Type} (z : α) (F : JFields β) : ∀ (ms : List (String × Json)) (a : α) (b : β),
    (JFields.skip z F).decMembers ms (a, b) = (F.decMembers ms b).map (a, ·)
  | [], _, _ => rfl
  | m :: ms, a, b => by
    rw [decMembers_cons, decMembers_cons]
    simp only [JFields.set]
    cases F.set m.1 m.2 b with
    | none => rfl
    | some b' => exact json_skip_dec z F ms a b'

/-- Reading JSON does not touch the two fields that only XML has. -/
theorem json_keeps_xml_fields {j : Json} {old b : BOM} (h : decodeJSON j old = some b) :
    b.xmlName = old.xmlName ∧ b.xmlns = old.xmlns := by
  unfold decodeJSON at h
  split at h
  · have hs : ∀ ms, (J.bomFields J.specVersion).decMembers ms old.toP = some b.toP →
        b.xmlName = old.xmlName ∧ b.xmlns = old.xmlns := by
      intro ms hm
      have e : old.toP = (old.xmlName, old.xmlns, old.toP.2.2) := rfl
      rw [e] at hm
      unfold J.bomFields at hm
      rw [json_skip_dec, json_skip_dec, Option.map_map] at hm
      obtain ⟨q, -, hq⟩ := Option.map_eq_some_iff.1 hm
      exact ⟨(congrArg (·.1) hq).symm, (congrArg (·.2.1) hq).symm⟩
    simp only [J.bom, J.bomWith, JCodec.struct] at h
    cases j with
    | null => cases h; exact ⟨rfl, rfl⟩
    | obj ms =>
      obtain ⟨q, hq, rfl⟩ := Option.map_eq_some_iff.1 h
      exact hs ms hq
    | bool _ => cases h
    | num _ => cases h
    | str _ => cases h
    | arr _ => cases h
  · cases h

/-- The format is always written. -/
theorem json_format_written {b : BOM} {j : Json} (h : encodeJSON b = .ok j) :
    ∃ ms, j = .obj ms ∧ ("bomFormat", .str b.bomFormat) ∈ ms := by
  have h' := (encodeJSON_ok h).2
  simp only [J.bom, J.bomWith, JCodec.struct, Option.map_eq_some_iff] at h'
  obtain ⟨ms, g, rfl⟩ := h'
  refine ⟨ms, rfl, ?_⟩
  unfold J.bomFields at g
  have h : (JFields.field _ _ _ _).enc b.toP.2.2 = some ms := g
  have step : ∀ {α β : Type} {n : String} {oe : Bool} {c : JCodec α} {F : JFields β} {x : α × β}
      {ms : List (String × Json)}, (JFields.field n oe c F).enc x = some ms →
      ∃ ms', F.enc x.2 = some ms' ∧ (∀ m ∈ ms', m ∈ ms) ∧
        (oe = false → ∃ j, c.enc x.1 = some j ∧ (n, j) ∈ ms) := by
    intro α β n oe c F x ms h
    unfold JFields.enc at h
    split at h
    · rename_i he
      exact ⟨ms, h, fun _ h => h, fun hoe => by simp [hoe] at he⟩
    · split at h
      · simp at h
      · rename_i j hj
        obtain ⟨ms', h', rfl⟩ := Option.map_eq_some_iff.1 h
        exact ⟨ms', h', fun m hm => by simp [hm], fun _ => ⟨j, hj, by simp⟩⟩
  obtain ⟨ms1, h1, m1, _⟩ := step h
  obtain ⟨ms2, h2, m2, hh⟩ := step h1
  obtain ⟨j, hj, hm⟩ := hh rfl
  have hj : some (Json.str b.bomFormat) = some j := hj
  cases hj
  exact m1 _ hm

end

section
variable [FloatIO] [XFloatIO]

/-! ## What goes wrong -/

/-- C60 is false for `Encode`: a BOM that was read from JSON and is written as XML is in no namespace, and read from
there it has no version. -/
theorem json_to_xml_unversioned (order : List (Int × String)) (hp : order.Perm xmlNamespaces) (j : Json) (b : BOM)
    (doc : XmlDoc) (hi : b.GoInts) (hd : decodeJSON j {} = some b) (h : encodeXML b = some doc) :
    doc.space = "" ∧ ∃ b', decodeXML order doc {} = some b' ∧ b'.xmlns = "" ∧ b'.specVersion = 0 := by
  have hx : b.xmlns = "" := (json_keeps_xml_fields hd).2
  refine ⟨by rw [(encodeXML_some h).1, hx]; decide, _, xml_reads_norm h (goInts_good hi), ?_⟩
  rw [versionOfNamespace_zero hp _ rfl]
  have hn : (X.bom.norm b.xmlPart).xmlns = "" := by
    show Xml.sanitize b.xmlns = ""
    rw [hx]; decide
  generalize X.bom.norm b.xmlPart = m at hn ⊢
  refine ⟨hn, ?_⟩
  show namespaceVersion m.xmlns = 0
  rw [hn]
  decide +kernel

/-- C60 is false for the format: a BOM that was read from XML is written as JSON, by `Encode` and by `EncodeVersion`,
with an empty `bomFormat`, whereas the schema has `"CycloneDX"` as the only value. -/
theorem xml_to_json_unidentified (order : List (Int × String)) (hp : order.Perm xmlNamespaces) (doc : XmlDoc) (b : BOM)
    (v : Int) (j : Json) (hd : decodeXML order doc {} = some b)
    (h : encodeVersionJSON b v = .ok j ∨ encodeJSON b = .ok j) : ∃ ms, j = .obj ms ∧ ("bomFormat", .str "") ∈ ms := by
  have hb : b.bomFormat = "" := (decodeXML_shape hp hd).2.2.1
  rcases h with h | h
  · obtain ⟨ms, hm, hf⟩ := json_format_written h
    refine ⟨ms, hm, ?_⟩
    have : (copyAndConvert v b).bomFormat = b.bomFormat := by rw [copyAndConvert, convert_bomFormat]; rfl
    rw [this, hb] at hf
    exact hf
  · rw [← hb]; exact json_format_written h

/-! ## What is kept -/

/-- C60, from any BOM to XML, in the latest version: what `EncodeVersion` writes has the contents of the BOM. -/
theorem to_xml_contents_partial (order : List (Int × String)) (hp : order.Perm xmlNamespaces) (b : BOM)
    (hc : b.Copyable) (hl : LatestDocument b) (hw : b.XWritable) (hx : b.XPlain) :
    ∃ doc b', encodeVersionXML b SpecVersion1_7 = some doc ∧ decodeXML order doc {} = some b' ∧
      contents b' = contents b ∧ b'.specVersion = SpecVersion1_7 ∧ b'.xmlns = "http://cyclonedx.org/schema/bom/1.7" := by
  obtain ⟨doc₀, h₀⟩ := (xml_encodes_iff b).2 hw
  obtain ⟨doc, h⟩ := encodeVersionXML_total b SpecVersion1_7 doc₀ h₀
  have hcv : copyAndConvert SpecVersion1_7 b = _ := (congrArg (convert SpecVersion1_7) ((BOM.copy_eq b).2 hc)).trans
    (convert_latest_partial b hl)
  have he : encodeXML (copyAndConvert SpecVersion1_7 b) = some doc := h
  rw [hcv] at he
  refine ⟨doc, _, h, xml_round_trip order hp _ doc he ?_, ?_, ?_, rfl⟩
  · exact ⟨(by decide +kernel : XString "http://cyclonedx.org/schema/bom/1.7"), hx.2⟩
  · rfl
  · exact (by decide +kernel : namespaceVersion "http://cyclonedx.org/schema/bom/1.7" = 8)

/-- C60, from any BOM to JSON, in the latest version: what `EncodeVersion` writes has the contents of the BOM, and its
signature. -/
theorem to_json_contents_partial (b : BOM) (hc : b.Copyable) (hl : LatestDocument b) (hw : b.Writable)
    (ht : b.ToolsNonEmpty) (hx : (withoutXML { b with specVersion := SpecVersion1_7 }).Plain) :
    ∃ j, encodeVersionJSON b SpecVersion1_7 = .ok j ∧ (j.depth ≤ maxNestingDepth → ∃ b', decodeJSON j {} = some b' ∧
      contents b' = contents b ∧ b'.specVersion = SpecVersion1_7 ∧ b'.signature = b.signature ∧
      b'.bomFormat = b.bomFormat) := by
  have hcv : copyAndConvert SpecVersion1_7 b = _ := (congrArg (convert SpecVersion1_7) ((BOM.copy_eq b).2 hc)).trans
    (convert_latest_partial b hl)
  have hwv : (copyAndConvert SpecVersion1_7 b).Writable := convert_writable _ (BOM.copy_toolsNonEmpty ht) (BOM.copy_writable ht hw)
  obtain ⟨j, h⟩ := (json_encodes_iff (copyAndConvert SpecVersion1_7 b)).2 ⟨by rw [hcv]; exact (by decide : SpecVersion1_2 ≤ SpecVersion1_7), hwv⟩
  refine ⟨j, h, fun hdepth => ?_⟩
  rw [hcv] at h
  exact ⟨_, (json_round_trip _ j h hdepth).2 hx, rfl, rfl, rfl, rfl⟩

/-- C60: a BOM that was read from JSON, written as XML, read, written as JSON and read again has the same contents. -/
theorem json_xml_json_partial (order : List (Int × String)) (hp : order.Perm xmlNamespaces) (b : BOM)
    (hc : b.Copyable) (hl : LatestDocument b) (hwx : b.XWritable) (hxp : b.XPlain) (hw : b.Writable)
    (ht : b.ToolsNonEmpty) (hj : (withoutXML { b with specVersion := SpecVersion1_7 }).Plain) :
    ∃ doc b₁ j, encodeVersionXML b SpecVersion1_7 = some doc ∧ decodeXML order doc {} = some b₁ ∧
      encodeVersionJSON b₁ SpecVersion1_7 = .ok j ∧ (j.depth ≤ maxNestingDepth →
        ∃ b₂, decodeJSON j {} = some b₂ ∧ contents b₂ = contents b ∧ b₂.specVersion = SpecVersion1_7) := by
  obtain ⟨doc, b₁, h1, h2, h3, h4, h5⟩ := to_xml_contents_partial order hp b hc hl hwx hxp
  have hs := decodeXML_shape hp h2
  have e : b₁ = { b with xmlName := b₁.xmlName, xmlns := b₁.xmlns, jsonSchema := "", bomFormat := "", specVersion := b₁.specVersion, signature := none } := by
    have := h3
    cases b; cases b₁
    simp only [contents, BOM.mk.injEq] at this hs ⊢
    simp_all
  have hc' : b₁.Copyable := by
    rw [e]
    obtain ⟨c1, c2, c3, c4, c5, c6, c7, c8, c9, c10, c11, c12, c13, -⟩ := hc
    exact ⟨c1, c2, c3, c4, c5, c6, c7, c8, c9, c10, c11, c12, c13, fun y hy => by cases hy⟩
  have hl' : LatestDocument b₁ := by
    rw [e]
    refine ⟨fun c h => hl.1 c ?_, hl.2, hl.3, hl.4⟩
    cases h with
    | metadata hm hk hn => exact .metadata hm hk hn
    | top hk hn => exact .top hk hn
  have hw' : b₁.Writable := by rw [e]; exact hw
  have ht' : b₁.ToolsNonEmpty := by rw [e]; exact ht
  have hj' : (withoutXML { b₁ with specVersion := SpecVersion1_7 }).Plain := by
    rw [e]
    obtain ⟨c1, c2, c3, c4, c5, c6, c7, c8, c9, c10, c11, c12, c13, c14, c15, c16, c17, -⟩ := hj
    exact ⟨c1, c2, c3, c4, c5, c6, c7, c8, c9, c10, c11, c12, c13, c14, c15, c16, c17, fun y hy => by cases hy⟩
  obtain ⟨j, hj1, hj2⟩ := to_json_contents_partial b₁ hc' hl' hw' ht' hj'
  refine ⟨doc, b₁, j, h1, h2, hj1, fun hdepth => ?_⟩
  obtain ⟨b₂, k1, k2, k3, -⟩ := hj2 hdepth
  exact ⟨b₂, k1, k2.trans h3, k3⟩

/-- A BOM with a component. -/
def portableBOM : BOM :=
  { bomFormat := "CycloneDX", specVersion := 7, version := 1, components := .list [{ name := "a", type := "library", scope := "required", hashes := .list [{ algorithm := "SHA-256", value := "00" }] }] }

set_option maxRecDepth 10000 in
/-- The hypotheses of these theorems are met by a BOM with a component. -/
example : portableBOM.Copyable ∧ LatestDocument portableBOM ∧ portableBOM.XWritable ∧ portableBOM.XPlain ∧
    portableBOM.Writable ∧ portableBOM.ToolsNonEmpty ∧
    (withoutXML { portableBOM with specVersion := SpecVersion1_7 }).Plain := by
  refine ⟨(copy_eq_iff _).1 rfl, ?_, ?_, ?_, ?_, ?_, ?_⟩
  · refine ⟨?_, ?_, ?_, ?_⟩
    · intro c hc
      cases hc with
      | metadata hm _ _ => cases hm
      | top hd hp =>
        simp only [portableBOM, PSlice.elems, List.mem_singleton] at hd
        subst hd
        rcases partOf_cases hp with rfl | ⟨d, hd, -⟩
        · constructor <;> simp only [PSlice.elems, List.mem_singleton, forall_eq] <;> first | decide +kernel | simp
        · simp [Component.children, PSlice.elems] at hd
    · intro m hm; cases hm
    · simp [portableBOM, PSlice.elems]
    · simp [portableBOM, PSlice.elems]
  · simp [portableBOM, BOM.XWritable, PSlice.elems, Component.XWritable, XWritableComponents, XWritablePedigreeOpt]
  · simp [portableBOM, BOM.XPlain, PSlice.XEach, Component.XPlain, XPlainComponents, XPlainPedigreeOpt, Hash.XPlain]
    decide +kernel
  · simp [portableBOM, BOM.Writable, PSlice.elems, Component.Writable, WritableComponents, WritablePedigreeOpt]
  · simp [portableBOM, BOM.ToolsNonEmpty, PSlice.elems]
  · simp [portableBOM, withoutXML, BOM.Plain, PSlice.Each, PSlice.elems, Component.Plain, PlainComponents, PlainPedigreeOpt, InInt64, Hash.Plain, SpecVersion1_7]

end
end Verif.Props
