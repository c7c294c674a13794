import Verif.Props.Reader
import Verif.Model.Format
import Verif.Spec.XmlPlain
import Verif.Xml.PlainLaws

/-!
# C78: texts as bytes, C79: formats, C80: the wrong format
-/

set_option linter.unusedSectionVars false

namespace Verif.Props

open Verif.Reader

/-! ## C78 -/

/-- C78: what is written for a text is its encoding in UTF-8, the only one. -/
theorem utf8_written (t : List Char) (bs : List UInt8) : Utf8.Octets t bs ↔ bs = Utf8.encode t := Utf8.octets_iff

section
variable [FloatIO]

/-- C78: JSON decoders decode UTF-8. -/
theorem json_bytes (bs : List UInt8) (t : List Char) (old : BOM) (h : Utf8.Octets t bs) :
    decodeBytes bs old = decodeText t old := by
  unfold decodeBytes Utf8.jsonChars
  rw [Utf8.chars_octets _ h]

/-- C78: to JSON decoders, a byte that is not part of the encoding of a character is U+FFFD. -/
theorem json_invalid_byte (t : List Char) (x y : List UInt8) (b : UInt8) (old : BOM) (hx : Utf8.Octets t x)
    (hb : ∀ c p r, b :: y = p ++ r → ¬ Utf8.Encodes c p) :
    decodeBytes (x ++ b :: y) old = decodeBytes (x ++ ([0xEF, 0xBF, 0xBD] ++ y)) old := by
  have h1 : Utf8.runes (b :: y) = none :: Utf8.runes y := by
    have hn : (Utf8.decodeRune b y).1 = none := by
      cases hc : (Utf8.decodeRune b y).1 with
      | none => rfl
      | some c =>
        obtain ⟨p, hp, he⟩ := Utf8.decodeRune_some (r := (Utf8.decodeRune b y).2) (c := c) (Prod.ext hc rfl)
        exact absurd he (hb c p _ hp)
    have hr : (Utf8.decodeRune b y).2 = y := by
      revert hn
      unfold Utf8.decodeRune
      split
      · intro _; rfl
      · split
        · intro _; rfl
        · intro h; cases h
    rw [Utf8.runes_cons, hn, hr]
  have h2 : Utf8.runes ([0xEF, 0xBF, 0xBD] ++ y) = some (Char.ofNat 0xFFFD) :: Utf8.runes y := by
    have ho : Utf8.Octets [Char.ofNat 0xFFFD] [0xEF, 0xBF, 0xBD] :=
      .cons (x := [0xEF, 0xBF, 0xBD]) (bs := []) (.three (by unfold Utf8.Tail; decide) (by unfold Utf8.Tail; decide) (by decide)) .nil
    exact Utf8.runes_octets ho y
  unfold decodeBytes Utf8.jsonChars
  rw [Utf8.runes_octets hx, Utf8.runes_octets hx, h1, h2]
  simp only [List.map_append, List.map_cons, Option.getD_none, Option.getD_some]

end

section
variable [XFloatIO] [XmlIO] [XmlText.XmlLang]

/-- C78: XML decoders decode UTF-8. -/
theorem xml_bytes (order : List (Int × String)) (bs : List UInt8) (t : List Char) (old : BOM) (h : Utf8.Octets t bs) :
    decodeXMLBytes order bs old = decodeXMLText order t old := by
  unfold decodeXMLBytes Utf8.xmlChars
  rw [Utf8.chars_octets _ h]

end

/-- A tree in whose texts and attributes there are only characters that XML allows. -/
inductive Lawful : Xml → Prop
  | text {s : String} : XString s → Lawful (.text s)
  | elem {n : String} {as : List (String × String)} {ks : List Xml} : (∀ a ∈ as, XString a.2) → (∀ k ∈ ks, Lawful k) →
      Lawful (.elem n as ks)

section
variable [XmlText.XmlLang]

omit [XmlText.XmlLang] in
theorem xmlChar_of_isChar {c : Char} (h : Xml.isChar c = true) : XmlChar c := by
  have e : ∀ d : Char, c = d ↔ c.toNat = d.toNat := fun d => Char.toNat_inj.symm
  simp only [Xml.isChar, decide_eq_true_eq, e] at h
  exact h

omit [XmlText.XmlLang] in
theorem data_chars {raw s : List Char} (h : XmlGrammar.Data raw s) : ∀ c ∈ s, XmlChar c := by
  induction h with
  | nil => simp
  | char _ _ hc _ ih =>
    intro c h
    rcases List.mem_cons.1 h with rfl | h
    · exact xmlChar_of_isChar hc
    · exact ih c h
  | crlf _ ih =>
    intro c h
    rcases List.mem_cons.1 h with rfl | h
    · exact .inr (.inl rfl)
    · exact ih c h
  | cr _ _ ih =>
    intro c h
    rcases List.mem_cons.1 h with rfl | h
    · exact .inr (.inl rfl)
    · exact ih c h
  | ref _ hc _ ih =>
    intro c h
    rcases List.mem_cons.1 h with rfl | h
    · exact xmlChar_of_isChar hc
    · exact ih c h

omit [XmlText.XmlLang] in
theorem literal_chars {raw s : List Char} (h : XmlGrammar.Literal raw s) : ∀ c ∈ s, XmlChar c := by
  induction h with
  | nil => simp
  | char _ hc _ ih =>
    intro c h
    rcases List.mem_cons.1 h with rfl | h
    · exact xmlChar_of_isChar hc
    · exact ih c h
  | crlf _ ih =>
    intro c h
    rcases List.mem_cons.1 h with rfl | h
    · exact .inr (.inl rfl)
    · exact ih c h
  | cr _ _ ih =>
    intro c h
    rcases List.mem_cons.1 h with rfl | h
    · exact .inr (.inl rfl)
    · exact ih c h

theorem xstring_ofList {s : List Char} (h : ∀ c ∈ s, XmlChar c) : XString (String.ofList s) := by
  unfold XString
  rw [String.toList_ofList]
  exact h

theorem attrs_chars {t : List Char} {as : List (XmlText.QName × List Char)} {e : Bool} (h : XmlGrammar.Attrs t as e) :
    ∀ a ∈ XmlGrammar.locals as, XString a.2 := by
  induction h with
  | close _ => simp [XmlGrammar.locals]
  | closeEmpty _ => simp [XmlGrammar.locals]
  | attr _ _ _ _ hv _ ih =>
    intro a ha
    rcases List.mem_cons.1 ha with rfl | ha
    · cases hv with
      | mk _ _ _ hd => exact xstring_ofList (data_chars hd)
    · exact ih a ha

theorem startTag_chars {t : List Char} {n : XmlText.QName} {as : List (XmlText.QName × List Char)} {e : Bool}
    (h : XmlGrammar.StartTag t n as e) : ∀ a ∈ XmlGrammar.locals as, XString a.2 := by
  cases h with
  | mk _ _ ha => exact attrs_chars ha

theorem content_lawful {t : List Char} {ks : List Xml} (h : XmlGrammar.Content t ks) : ∀ k ∈ ks, Lawful k := by
  induction h with
  | nil => simp
  | text ht _ _ ih =>
    intro k hk
    rcases List.mem_cons.1 hk with rfl | hk
    · exact .text (xstring_ofList (data_chars ht.2.2.2))
    · exact ih k hk
  | cdata ht _ ih =>
    intro k hk
    rcases List.mem_cons.1 hk with rfl | hk
    · cases ht with
      | mk _ hl => exact .text (xstring_ofList (literal_chars hl))
    · exact ih k hk
  | misc _ _ ih => exact ih
  | empty hs _ ih =>
    intro k hk
    rcases List.mem_cons.1 hk with rfl | hk
    · exact .elem (startTag_chars hs) (by simp)
    · exact ih k hk
  | elem hs _ _ _ ih₁ ih₂ =>
    intro k hk
    rcases List.mem_cons.1 hk with rfl | hk
    · exact .elem (startTag_chars hs) ih₁
    · exact ih₂ k hk

/-- C78: whatever bytes an XML decoder accepts, it decodes a document in whose texts and attributes there are only
characters that XML allows: nothing is made of bytes that are not UTF-8. -/
theorem xml_bytes_lawful [XFloatIO] [XmlIO] (order : List (Int × String)) (bs : List UInt8) (old b : BOM)
    (h : decodeXMLBytes order bs old = some b) :
    ∃ d, XmlGrammar.Document (Utf8.xmlChars bs) d ∧ Lawful d.root ∧ decodeXML order d old = some b := by
  unfold decodeXMLBytes decodeXMLText at h
  cases hp : XmlText.parse (Utf8.xmlChars bs) with
  | none => rw [hp] at h; cases h
  | some d =>
    rw [hp] at h
    simp only at h
    split at h
    · cases h
    · refine ⟨d, XmlText.parse_iff.1 hp, ?_, h⟩
      obtain ⟨s, r, -, hW⟩ := XmlText.document_iff_whole.1 (XmlText.parse_iff.1 hp)
      cases hW with
      | empty _ hs _ => exact .elem (startTag_chars hs) (by simp)
      | elem _ hs hb _ _ => exact .elem (startTag_chars hs) (content_lawful hb)

end

/-! ## C79 -/

/-- C79: every format but JSON is XML, to encoders and to decoders. -/
theorem other_formats (f : BOMFileFormat) (h : f ≠ BOMFileFormatJSON) :
    newBOMEncoder f = newBOMEncoder BOMFileFormatXML ∧ newBOMDecoder f = newBOMDecoder BOMFileFormatXML := by
  unfold newBOMEncoder newBOMDecoder
  simp only [h, if_false]
  exact ⟨rfl, rfl⟩

section
variable [FloatIO] [Marking] [XFloatIO] [XmlIO] [XmlText.XmlLang]

/-- What is left of a BOM in a format. -/
def throughFormat (f : BOMFileFormat) (b : BOM) : BOM := if f = BOMFileFormatJSON then withoutXML b else asXML b

/-- A BOM that uses only what a format can represent. -/
def PlainIn (f : BOMFileFormat) (b : BOM) : Prop := if f = BOMFileFormatJSON then (withoutXML b).Plain else b.XPlain

/-- An encoder for a format with the given settings. -/
def encoderFor (f : BOMFileFormat) (pretty escape : Bool) : BOMEncoder :=
  ((newBOMEncoder f).setPretty pretty).setEscapeHTML escape

/-- A BOM that is not nested deeper than decoders read. -/
def Shallow (b : BOM) : Prop :=
  (∀ j, encodeJSON b = .ok j → j.depth ≤ maxNestingDepth) ∧ ∀ doc, encodeXML b = some doc → doc.root.depth ≤ 10000

theorem encoderFor_json (p h : Bool) : encoderFor BOMFileFormatJSON p h = .json ⟨p, h⟩ := rfl

theorem encoderFor_xml {f : BOMFileFormat} (hf : f ≠ BOMFileFormatJSON) (p h : Bool) : encoderFor f p h = .xml ⟨p⟩ := by
  unfold encoderFor newBOMEncoder
  rw [if_neg hf]
  rfl

theorem newBOMDecoder_xml {f : BOMFileFormat} (hf : f ≠ BOMFileFormatJSON) : newBOMDecoder f = .xml := by
  unfold newBOMDecoder
  rw [if_neg hf]

theorem encode_json {e : JSONEncoder} {b : BOM} {bs : List UInt8} (h : (BOMEncoder.json e).encode b = some bs) :
    ∃ t, (e.encode (fun _ => true) b).writes = [t] ∧ bs = Utf8.encode t := by
  unfold BOMEncoder.encode at h
  unfold JSONEncoder.encode at h ⊢
  cases hj : encodeJSON b with
  | error err => rw [hj] at h; cases h
  | ok j =>
    rw [hj] at h
    simp only [if_true, Option.isSome_none, Bool.false_eq_true, if_false, Option.some.injEq, List.flatten_cons,
      List.flatten_nil, List.append_nil] at h
    exact ⟨_, rfl, h.symm⟩

theorem encode_xml {e : XMLEncoder} {b : BOM} {bs : List UInt8}
    (h : (BOMEncoder.xml e).encode b = some bs) :
    (e.encode (fun _ _ => true) b).failed = false ∧ bs = Utf8.encode (e.encode (fun _ _ => true) b).writes.flatten := by
  unfold BOMEncoder.encode at h
  simp only at h
  split at h
  · cases h
  · next hf => exact ⟨by simpa using hf, (Option.some.inj h).symm⟩

theorem toOption_json {ps : List Piece} {bs : List UInt8} {old : BOM} (h : Delivers ps bs none) :
    (decodeJSONFrom ps old).1.toOption = decodeBytes bs old := by
  cases hd : decodeBytes bs old with
  | some b => rw [(json_reader_iff ps old b).2 ⟨bs, h, hd⟩]; rfl
  | none =>
    cases hr : (decodeJSONFrom ps old).1 with
    | error e => rfl
    | ok b =>
      obtain ⟨bs', h', hb⟩ := (json_reader_iff ps old b).1 hr
      obtain ⟨rfl, -⟩ := delivers_unique h h'
      rw [hd] at hb
      cases hb

/-- C79: end to end, for every format, all settings of the encoder and however the reader hands over what was
written: a fresh decoder for the format yields the BOM (up to the fields that the format does not have) exactly if the
BOM uses only what the format can represent. -/
theorem format_round_trip (order : List (Int × String)) (hp : order.Perm xmlNamespaces) (f : BOMFileFormat)
    (pretty escape : Bool) (b : BOM) (bs : List UInt8) (ps : List Piece) (h : (encoderFor f pretty escape).encode b = some bs)
    (hi : b.GoInts) (hs : Shallow b) (hd : Delivers ps bs none) (hl : ¬ Stalls ps) :
    (newBOMDecoder f).decode order ps {} = some (throughFormat f b) ↔ PlainIn f b := by
  by_cases hf : f = BOMFileFormatJSON
  · subst hf
    rw [encoderFor_json] at h
    obtain ⟨t, ht, rfl⟩ := encode_json h
    show (decodeJSONFrom ps {}).1.toOption = some (withoutXML b) ↔ (withoutXML b).Plain
    rw [toOption_json hd, decodeBytes_encode]
    refine json_text_round_trip _ _ b t (by rw [ht]; exact List.mem_cons_self) ?_
    intro j hj
    obtain ⟨j', body, hj', rfl, hv, -⟩ := encode_writes (t := t) (by rw [ht]; exact List.mem_cons_self)
    have e1 := JText.parse_iff.2 hj
    rw [parse_written hv] at e1
    cases e1
    exact hs.1 j hj'
  · rw [encoderFor_xml hf] at h
    obtain ⟨h1, rfl⟩ := encode_xml h
    rw [newBOMDecoder_xml hf]
    unfold throughFormat PlainIn
    rw [if_neg hf, if_neg hf]
    show (decodeXMLFrom order ps {}).map Prod.fst = some (asXML b) ↔ b.XPlain
    rw [xml_reader order ps _ none {} hd hl, xml_bytes order _ _ {} (Utf8.encode_octets _)]
    exact xml_text_round_trip order hp _ _ b h1 hi hs.2

/-- C79: end to end for `EncodeVersion`: whatever it writes for version 1.k, in whatever format, a decoder for the
format reads without an error, and the BOM that it reads reports that version. -/
theorem format_version (order : List (Int × String)) (hp : order.Perm xmlNamespaces) (f : BOMFileFormat)
    (pretty escape : Bool) (b : BOM) (k : Nat) (hk : k ≤ 7) (bs : List UInt8) (ps : List Piece)
    (h : (encoderFor f pretty escape).encodeVersion b (k + 1) = some bs) (hr : b.Regular) (hi : b.GoInts)
    (hs : Shallow (copyAndConvert (k + 1) b)) (hd : Delivers ps bs none) (hl : ¬ Stalls ps) :
    ∃ b', (newBOMDecoder f).decode order ps {} = some b' ∧ b'.specVersion = k + 1 := by
  by_cases hf : f = BOMFileFormatJSON
  · subst hf
    rw [encoderFor_json] at h
    obtain ⟨t, ht, rfl⟩ := encode_json h
    show ∃ b', (decodeJSONFrom ps {}).1.toOption = some b' ∧ b'.specVersion = k + 1
    rw [toOption_json hd, decodeBytes_encode]
    have hm : t ∈ ((⟨pretty, escape⟩ : JSONEncoder).encodeVersion (fun _ => true) b (k + 1)).writes := by
      unfold JSONEncoder.encodeVersion
      rw [ht]; exact List.mem_cons_self
    refine ⟨_, json_text_encodeVersion_decodes _ _ b (k + 1) t hr (by simp only [SpecVersion1_7]; omega) hm ?_, ?_⟩
    · intro j hj
      obtain ⟨j', body, hj', rfl, hv, -⟩ := encode_writes (t := t) (by rw [ht]; exact List.mem_cons_self)
      have e1 := JText.parse_iff.2 hj
      rw [parse_written hv] at e1
      cases e1
      exact hs.1 j hj'
    · show (convert (k + 1) b.copy).specVersion = k + 1
      rfl
  · rw [encoderFor_xml hf] at h
    obtain ⟨h1, rfl⟩ := encode_xml h
    rw [newBOMDecoder_xml hf]
    show ∃ b', (decodeXMLFrom order ps {}).map Prod.fst = some b' ∧ b'.specVersion = k + 1
    rw [xml_reader order ps _ none {} hd hl, xml_bytes order _ _ {} (Utf8.encode_octets _)]
    obtain ⟨b', h2, h3, -⟩ := xml_text_encodeVersion_decodes order hp ⟨pretty⟩ (fun _ _ => true) b k hk hi h1
      (fun doc hdoc => hs.2 doc hdoc)
    exact ⟨b', h2, h3⟩

/-! ## C80 -/

theorem decodeText_angle (r : List Char) (old : BOM) : decodeText ('<' :: r) old = none := by
  have : JText.parse ('<' :: r) = none := by
    cases hp : JText.parse ('<' :: r) with
    | none => rfl
    | some j =>
      generalize ht : '<' :: r = t at hp
      obtain @⟨w, w', v, _, hw, hv, hw'⟩ := JText.parse_iff.1 hp
      cases w with
      | cons c w =>
        simp only [List.cons_append, List.cons.injEq] at ht
        have := hw c List.mem_cons_self
        rw [← ht.1] at this
        exact absurd this (by decide)
      | nil =>
        rw [List.nil_append] at ht
        cases hv with
        | num hnum =>
          obtain ⟨c, s, hc, hn⟩ := JText.num_head (.num hnum)
          rw [hc, List.cons_append, List.cons.injEq] at ht
          rw [← ht.1] at hn
          exact absurd hn (by decide)
        | str hs => cases hs; simp at ht
        | _ => simp at ht
  unfold decodeText
  rw [this]

/-- C80: a JSON decoder refuses whatever the XML encoder writes. -/
theorem xml_as_json_refused (f : BOMFileFormat) (hf : f ≠ BOMFileFormatJSON) (pretty escape : Bool) (b old : BOM)
    (order : List (Int × String)) (bs : List UInt8) (ps : List Piece) (e : Option String)
    (h : (encoderFor f pretty escape).encode b = some bs) (hd : Delivers ps bs e) :
    (newBOMDecoder BOMFileFormatJSON).decode order ps old = none := by
  rw [encoderFor_xml hf] at h
  obtain ⟨h1, rfl⟩ := encode_xml h
  show (decodeJSONFrom ps old).1.toOption = none
  cases hr : (decodeJSONFrom ps old).1 with
  | error e => rfl
  | ok b' =>
    obtain ⟨bs', h', hb⟩ := (json_reader_iff ps old b').1 hr
    obtain ⟨rfl, -⟩ := delivers_unique hd h'
    obtain ⟨ws, hw⟩ := xml_header_first ⟨pretty⟩ (fun _ _ => true) b
    rw [decodeBytes_encode, hw, List.flatten_cons] at hb
    have hh : ∃ r, "<?xml version=\"1.0\" encoding=\"UTF-8\"?>\n".toList = '<' :: r := ⟨_, rfl⟩
    obtain ⟨r, hh⟩ := hh
    rw [hh, List.cons_append, decodeText_angle] at hb
    cases hb

theorem document_angle {t : List Char} {d : XmlDoc} (h : XmlGrammar.Document t d) : '<' ∈ t := by
  obtain ⟨s, r, rfl, hs⟩ := XmlText.document_iff_whole.1 h
  refine List.mem_append_left _ ?_
  cases hs with
  | empty _ hs _ => cases hs; simp
  | elem _ hs _ _ _ => cases hs; simp

/-- C80: an XML decoder refuses what the JSON encoder writes, if HTML is escaped, as it is by default. -/
theorem json_as_xml_refused_partial (f : BOMFileFormat) (hf : f ≠ BOMFileFormatJSON) (pretty : Bool) (b old : BOM)
    (order : List (Int × String)) (bs : List UInt8) (ps : List Piece) (e : Option String)
    (h : (encoderFor BOMFileFormatJSON pretty true).encode b = some bs) (hd : Delivers ps bs e) :
    (newBOMDecoder f).decode order ps old = none := by
  rw [encoderFor_json] at h
  obtain ⟨t, ht, rfl⟩ := encode_json h
  rw [newBOMDecoder_xml hf]
  show (decodeXMLFrom order ps old).map Prod.fst = none
  rw [xml_reader_incomplete order ps _ e old hd]
  · rfl
  · intro d hdoc
    rw [xmlChars_encode] at hdoc
    exact (json_html_safe ⟨pretty, true⟩ (fun _ => true) b t rfl (by rw [ht]; exact List.mem_cons_self) _
      (document_angle hdoc)).1 rfl

end

/-! ## A case of each hypothesis, and what is missing from C80 -/

section Examples

/-- A BOM with a component whose name looks like an XML document. -/
def polyglotBOM : BOM :=
  { bomFormat := "CycloneDX", specVersion := 7, version := 1,
    components := .list [{ type := "library", name := "<bom xmlns='http://cyclonedx.org/schema/bom/1.6'/>" }] }

/-- What is written for it without HTML escaping. -/
def polyglotText : String :=
  "{\"bomFormat\":\"CycloneDX\",\"specVersion\":\"1.6\",\"version\":1,\"components\":[{\"type\":\"library\",\"name\":\"<bom xmlns='http://cyclonedx.org/schema/bom/1.6'/>\"}]}\n"

/-- The document that an XML decoder finds in it. -/
def polyglotDoc : XmlDoc :=
  ⟨"http://cyclonedx.org/schema/bom/1.6", .elem "bom" [("xmlns", "http://cyclonedx.org/schema/bom/1.6")] []⟩

variable [FloatIO] [XFloatIO]

set_option maxRecDepth 20000 in
theorem polyglot_written : letI := noMarks
    (JSONEncoder.encode ⟨false, false⟩ (fun _ => true) polyglotBOM).writes = [polyglotText.toList] ∧
    (JSONEncoder.encode ⟨false, false⟩ (fun _ => true) polyglotBOM).error = none := ⟨rfl, rfl⟩

theorem polyglot_parsed : letI := asciiLang
    XmlText.parse polyglotText.toList = some polyglotDoc := by
  let _ := asciiLang
  have h : (match XmlText.parse polyglotText.toList with
      | some ⟨ns, .elem n as []⟩ => decide (ns = polyglotDoc.space ∧ n = "bom" ∧
          as = [("xmlns", "http://cyclonedx.org/schema/bom/1.6")])
      | _ => false) = true := by decide +kernel
  revert h
  generalize XmlText.parse polyglotText.toList = o
  intro h
  split at h
  · obtain ⟨rfl, rfl, rfl⟩ := of_decide_eq_true h
    rfl
  · cases h

set_option maxRecDepth 20000 in
/-- C80 does not hold if HTML is not escaped: an XML decoder accepts the JSON that is written for some BOM with a
component, and makes of it a BOM without components. -/
theorem json_as_xml_accepted : letI := noMarks; letI := onePiece; letI := asciiLang
    ∃ bs b', (encoderFor BOMFileFormatJSON false false).encode polyglotBOM = some bs ∧ Delivers [⟨bs, none⟩] bs none ∧
      (newBOMDecoder BOMFileFormatXML).decode xmlNamespaces [⟨bs, none⟩] {} = some b' ∧
      b'.components = .nil ∧ polyglotBOM.components ≠ .nil := by
  let _ := noMarks
  let _ := onePiece
  let _ := asciiLang
  have hd : ∃ b', decodeXML xmlNamespaces polyglotDoc {} = some b' ∧ b'.components = .nil := ⟨_, rfl, rfl⟩
  obtain ⟨b', hd, hc⟩ := hd
  have hdel : Delivers [⟨Utf8.encode polyglotText.toList, none⟩] (Utf8.encode polyglotText.toList) none := by
    have := Delivers.more (t := Utf8.encode polyglotText.toList) .done
    rwa [List.append_nil] at this
  refine ⟨Utf8.encode polyglotText.toList, b', ?_, hdel, ?_, hc, by simp [polyglotBOM]⟩
  · rw [encoderFor_json]
    unfold BOMEncoder.encode
    simp only [polyglot_written.1, polyglot_written.2, Option.isSome_none, Bool.false_eq_true, if_false, List.flatten_cons,
      List.flatten_nil, List.append_nil]
  · show (decodeXMLFrom _ _ _).map Prod.fst = _
    rw [xml_reader xmlNamespaces _ _ none {} hdel, xml_bytes xmlNamespaces _ _ {} (Utf8.encode_octets _)]
    · unfold decodeXMLText
      rw [polyglot_parsed]
      exact hd
    · rintro ⟨a, b, e⟩
      have := congrArg List.length e
      simp at this
      omega

/-- A byte that is no part of a character. -/
example : Utf8.Octets "é".toList [0xC3, 0xA9] ∧ ∀ c p r, (0xFF : UInt8) :: [] = p ++ r → ¬ Utf8.Encodes c p := by
  refine ⟨.cons (.two (by decide) (by unfold Utf8.Tail; decide) (by decide)) .nil, ?_⟩
  intro c p r e h
  cases h with
  | one h1 h2 => simp at e; rw [← e.1] at h1; revert h1; decide
  | two h1 h2 h3 => simp at e
  | three h1 h2 h3 => simp at e
  | four h1 h2 h3 h4 => simp at e

set_option maxRecDepth 20000 in
/-- A BOM that is written and read again in either format, with its JSON handed over in two pieces. -/
example : letI := noMarks; letI := onePiece
    ∃ bs, (encoderFor BOMFileFormatJSON false false).encode polyglotBOM = some bs ∧ Shallow polyglotBOM ∧
      polyglotBOM.GoInts ∧ PlainIn BOMFileFormatJSON polyglotBOM ∧
      Delivers [⟨bs.take 5, none⟩, ⟨bs.drop 5, none⟩] bs none := by
  let _ := noMarks
  let _ := onePiece
  let _ := asciiLang
  have hj : encodeJSON polyglotBOM = .ok (.obj [("bomFormat", .str "CycloneDX"), ("specVersion", .str "1.6"),
      ("version", .num (.ofInt 1)), ("components", .arr [.obj [("type", .str "library"),
        ("name", .str "<bom xmlns='http://cyclonedx.org/schema/bom/1.6'/>")]])]) := rfl
  have hx : encodeXML polyglotBOM = some ⟨"", .elem "bom" [("xmlns", ""), ("version", "1")] [.elem "components" []
      [.elem "component" [("type", "library")] [.elem "name" []
        [.text "<bom xmlns='http://cyclonedx.org/schema/bom/1.6'/>"]]]]⟩ := rfl
  have hdepth : (Json.obj [("bomFormat", .str "CycloneDX"), ("specVersion", .str "1.6"),
      ("version", .num (.ofInt 1)), ("components", .arr [.obj [("type", .str "library"),
        ("name", .str "<bom xmlns='http://cyclonedx.org/schema/bom/1.6'/>")]])]).depth ≤ maxNestingDepth := by decide
  refine ⟨Utf8.encode polyglotText.toList, ?_, ⟨?_, ?_⟩, ?_, (json_round_trip polyglotBOM _ hj hdepth).1 rfl, ?_⟩
  · rw [encoderFor_json]
    unfold BOMEncoder.encode
    simp only [polyglot_written.1, polyglot_written.2, Option.isSome_none, Bool.false_eq_true, if_false, List.flatten_cons,
      List.flatten_nil, List.append_nil]
  · intro j h
    rw [hj] at h
    cases h
    exact hdepth
  · intro doc h
    rw [hx] at h
    cases h
    decide +kernel
  · simp [polyglotBOM, BOM.GoInts, PSlice.elems, Component.GoInts, GoIntsComponents, GoIntsPedigreeOpt]
    decide
  · have := Delivers.more (t := (Utf8.encode polyglotText.toList).take 5)
      (.more (t := (Utf8.encode polyglotText.toList).drop 5) .done)
    rwa [List.append_nil, List.take_append_drop] at this

end Examples

end Verif.Props
