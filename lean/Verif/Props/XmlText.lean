import Verif.Xml.Encoder
import Verif.Xml.TextLaws
import Verif.Xml.SafeLaws
import Verif.Xml.PrintLaws
import Verif.Xml.StrictLaws
import Verif.Props.XmlVersion

/-!
# C54-C59: the texts of XML documents
-/

namespace Verif

theorem digitsAux_toDigits : ∀ (f n : Nat), n < f → (digitsAux f n).map digitChar = Nat.toDigits 10 n
  | 0, _, h => absurd h (Nat.not_lt_zero _)
  | f + 1, n, h => by
    unfold digitsAux
    split
    · next hn =>
      rw [Nat.toDigits_of_lt_base hn]
      have : ∀ n < 10, digitChar n = n.digitChar := by decide
      simp [this n hn]
    · next hn =>
      rw [Nat.toDigits_of_base_le (by decide) (by omega), List.map_append, digitsAux_toDigits f (n / 10) (by omega)]
      have : ∀ n < 10, digitChar n = n.digitChar := by decide
      simp [this (n % 10) (by omega)]

/-- `intString` is what Lean prints for an integer. -/
theorem intString_eq (i : Int) : intString i = toString i := by
  unfold intString intChars digits
  rw [digitsAux_toDigits _ _ (by omega)]
  cases i with
  | ofNat n =>
    have : ¬ (Int.ofNat n < 0) := Int.not_lt.2 (Int.natCast_nonneg n)
    rw [if_neg this]; rfl
  | negSucc n =>
    rw [if_pos (by omega)]
    show _ = "-" ++ Nat.repr (n + 1)
    simp [Nat.repr]

/-! ## Indentation does not change how deep elements nest -/

theorem depthL_blank : ∀ {bs : List Xml}, (∀ b ∈ bs, IsBlank b) → Xml.depthL bs = 0
  | [], _ => rfl
  | b :: bs, h => by
    have h1 : b.depth = 0 := by
      have := h b (by simp)
      cases b with
      | elem _ _ _ => simp [IsBlank] at this
      | text s => rfl
    show max b.depth (Xml.depthL bs) = 0
    rw [h1, depthL_blank (fun c hc => h c (by simp [hc]))]
    rfl

theorem depthL_append : ∀ (ks ls : List Xml), Xml.depthL (ks ++ ls) = max (Xml.depthL ks) (Xml.depthL ls)
  | [], ls => by show _ = max 0 _; rw [Nat.zero_max]; rfl
  | k :: ks, ls => by
    show max k.depth (Xml.depthL (ks ++ ls)) = max (max k.depth (Xml.depthL ks)) _
    rw [depthL_append ks ls, Nat.max_assoc]

mutual
theorem spaced_depth : ∀ {x y : Xml}, Xml.Spaced x y → y.depth = x.depth
  | .text s, y, h => by rw [spaced_text.1 h]
  | .elem n as ks, y, h => by
    obtain ⟨ls, rfl, h | ⟨-, -, h⟩⟩ := spaced_elem.1 h
    · rw [h]
    · show Xml.depthL ls + 1 = Xml.depthL ks + 1
      rw [spacedL_depth h]
theorem spacedL_depth : ∀ {ks ls : List Xml}, Xml.SpacedL ks ls → Xml.depthL ls = Xml.depthL ks
  | [], ls, h => by
    simp only [Xml.SpacedL] at h
    rw [depthL_blank h]; rfl
  | k :: ks, ls, h => by
    simp only [Xml.SpacedL] at h
    obtain ⟨bs, l, ls', rfl, hb, hl, hr⟩ := h
    rw [depthL_append, depthL_blank hb, Nat.zero_max]
    show max l.depth (Xml.depthL ls') = max k.depth (Xml.depthL ks)
    rw [spaced_depth hl, spacedL_depth hr]
end

end Verif

namespace Verif.Props

open Xml (sanitize Spaced)
open XmlText (XmlLang header print parse)

set_option linter.unusedSectionVars false

section
variable [XFloatIO]

/-! ## C59: the root element -/

/-- The attributes of the root element. -/
def rootAttrs (b : BOM) : List (String × String) :=
  ("xmlns", sanitize b.xmlns) :: ((if b.serialNumber = "" then [] else [("serialNumber", sanitize b.serialNumber)]) ++
    [("version", toString b.version)])

/-- C59: the root element states the namespace, the serial number if there is one, and the version of the BOM, in this
order, and nothing else; the version is stated even if it is 0. -/
theorem xml_root_attrs (b : BOM) (doc : XmlDoc) (h : encodeXML b = some doc) :
    doc.space = sanitize b.xmlns ∧ ∃ ks, doc.root = .elem "bom" (rootAttrs b) ks := by
  obtain ⟨h1, h2⟩ := encodeXML_some h
  refine ⟨h1, ?_⟩
  have h3 : (X.bomFields.encKids b.toP).map (fun ks => some (Xml.elem "bom" (X.bomFields.encAttrs b.toP) ks)) =
      some (some doc.root) := h2
  cases hk : X.bomFields.encKids b.toP with
  | none => rw [hk] at h3; cases h3
  | some ks =>
    rw [hk] at h3
    have h4 := Option.some.inj (Option.some.inj h3)
    refine ⟨ks, ?_⟩
    rw [← h4]
    have : X.bomFields.encAttrs b.toP = rootAttrs b := by
      unfold rootAttrs
      rw [← intString_eq]
      by_cases hs : b.serialNumber = ""
      · simp [X.bomFields, XFields.encAttrs, BOM.toP, XText.string, XText.int, hs, intString]
      · simp [X.bomFields, XFields.encAttrs, BOM.toP, XText.string, XText.int, hs, intString]
    rw [this]

theorem root_tidy {b : BOM} {doc : XmlDoc} (h : encodeXML b = some doc) : doc.root.Tidy :=
  XSafe.tidy (c := X.bom) "bom" _ _ inferInstance (encodeXML_some h).2

/-- The namespace of the root element is declared by its attribute `xmlns`. -/
theorem root_space {b : BOM} : XmlGrammar.Space ⟨[], "bom".toList⟩ (XmlStrict.qattrs (rootAttrs b)) (sanitize b.xmlns).toList := by
  refine .default rfl (by decide) ?_
  have h1 : XmlStrict.qattrs (rootAttrs b) = [] ++ (⟨[], "xmlns".toList⟩, (sanitize b.xmlns).toList) ::
      XmlStrict.qattrs ((if b.serialNumber = "" then [] else [("serialNumber", sanitize b.serialNumber)]) ++
    [("version", toString b.version)]) := rfl
  rw [h1]
  refine .mk ?_
  intro a ha e
  obtain ⟨kv, hkv, rfl⟩ := List.mem_map.1 ha
  have h2 : kv.1.toList = "xmlns".toList := congrArg XmlText.QName.loc e
  have h3 : kv.1 = "xmlns" := String.toList_inj.1 h2
  rcases List.mem_append.1 hkv with hm | hm
  · split at hm
    · cases hm
    · rw [List.mem_singleton.1 hm] at h3
      exact absurd (show "serialNumber" = "xmlns" from h3) (by decide)
  · rw [List.mem_singleton.1 hm] at h3
    exact absurd (show "version" = "xmlns" from h3) (by decide)

end

section
variable [XFloatIO] [XmlIO]

/-! ## C58: what reaches the writer -/

/-- The writer accepted each of the texts, after it had been given `old` and the texts before. -/
def Accepted (acc : List (List Char) → List Char → Bool) : List (List Char) → List (List Char) → Prop
  | _, [] => True
  | old, t :: ts => acc old t = true ∧ Accepted acc (old ++ [t]) ts

theorem send_accepted (acc : List (List Char) → List Char → Bool) : ∀ (ts old : List (List Char)),
    (sendPieces acc old ts).failed = false ↔ Accepted acc old (sendPieces acc old ts).writes
  | [], old => by simp [sendPieces, Accepted]
  | t :: ts, old => by
    unfold sendPieces
    split
    · next h => simp only [Accepted, h, true_and]; exact send_accepted acc ts _
    · next h => simp [Accepted, h]

theorem send_all {acc : List (List Char) → List Char → Bool} : ∀ {ts old : List (List Char)},
    (sendPieces acc old ts).failed = false → (sendPieces acc old ts).writes = ts
  | [], old, _ => rfl
  | t :: ts, old, h => by
    unfold sendPieces at h ⊢
    split at h
    · next ha => rw [if_pos ha]; simp only; rw [send_all h]
    · cases h

theorem send_prefix (acc : List (List Char) → List Char → Bool) : ∀ (ts old : List (List Char)),
    (sendPieces acc old ts).writes <+: ts
  | [], old => List.prefix_rfl
  | t :: ts, old => by
    unfold sendPieces
    split
    · exact List.cons_prefix_cons.2 ⟨rfl, send_prefix acc ts _⟩
    · exact ⟨ts, rfl⟩

/-- The text of a document: the XML declaration and the root element. -/
def documentText (pretty : Bool) (doc : XmlDoc) : List Char := header ++ (print pretty doc.root {}).1

/-- C58: the encoder reports success exactly if the BOM can be written as XML (see `xml_encodes_iff`) and the writer
accepted everything it was given. -/
theorem xml_success_iff (e : XMLEncoder) (acc : List (List Char) → List Char → Bool) (b : BOM) :
    (e.encode acc b).failed = false ↔ b.XWritable ∧ Accepted acc [] (e.encode acc b).writes := by
  rw [← xml_encodes_iff]
  unfold XMLEncoder.encode
  split
  · next ha =>
    cases hd : encodeXML b with
    | none => simp
    | some doc =>
      simp only [Accepted, ha, true_and, List.nil_append]
      rw [send_accepted]
      simp
  · next ha => simp [Accepted, ha]

/-- C58: if the encoder reports success, the writer has been given the text of the whole document. -/
theorem xml_success_text (e : XMLEncoder) (acc : List (List Char) → List Char → Bool) (b : BOM)
    (h : (e.encode acc b).failed = false) :
    ∃ doc, encodeXML b = some doc ∧ (e.encode acc b).writes.flatten = documentText e.pretty doc := by
  unfold XMLEncoder.encode at h ⊢
  split at h
  · next ha =>
    rw [if_pos ha]
    cases hd : encodeXML b with
    | none => rw [hd] at h; cases h
    | some doc =>
      rw [hd] at h
      refine ⟨doc, rfl, ?_⟩
      simp only at h ⊢
      rw [send_all h, List.flatten_cons, XmlIO.flatten_pieces]
      rfl
  · cases h

/-- C58: the first thing written is the XML declaration, for every BOM; so, other than in JSON, an error does not mean
that nothing was written. -/
theorem xml_header_first (e : XMLEncoder) (acc : List (List Char) → List Char → Bool) (b : BOM) :
    ∃ ws, (e.encode acc b).writes = "<?xml version=\"1.0\" encoding=\"UTF-8\"?>\n".toList :: ws := by
  unfold XMLEncoder.encode
  split
  · cases encodeXML b <;> exact ⟨_, rfl⟩
  · exact ⟨_, rfl⟩

/-- C58: of a BOM that can be written, the writer is never given anything but a beginning of its document. -/
theorem xml_writes_prefix (e : XMLEncoder) (acc : List (List Char) → List Char → Bool) (b : BOM) (doc : XmlDoc)
    (h : encodeXML b = some doc) : (e.encode acc b).writes.flatten <+: documentText e.pretty doc := by
  unfold XMLEncoder.encode
  split
  · rw [h]
    simp only [List.flatten_cons]
    refine (List.prefix_append_right_inj _).2 ?_
    obtain ⟨r, hr⟩ := send_prefix acc (XmlIO.pieces (print e.pretty doc.root {}).1) [header]
    refine ⟨r.flatten, ?_⟩
    rw [← List.flatten_append, hr, XmlIO.flatten_pieces]
  · exact ⟨(print e.pretty doc.root {}).1, by simp [documentText]⟩

/-! ## C55: well-formed XML -/

/-- An instance of `XmlLang`: names in ASCII, any declaration. -/
@[reducible] def asciiLang : XmlLang where
  first _ := false
  second _ := false
  declaration _ := true
  header := rfl

omit [XFloatIO] [XmlIO] in
/-- A text is the text of at most one tree. -/
theorem strict_unique {t : List Char} {x y : Xml} (hx : XmlStrict.Document t x) (hy : XmlStrict.Document t y) : x = y := by
  let _ := asciiLang
  have read : ∀ z, XmlStrict.Document t z → ∃ v, parse t = some ⟨v, z⟩ := by
    intro z hz
    have : ∃ n as ks, z = .elem n as ks := by
      cases hz with
      | mk _ he => cases he with
        | mk => exact ⟨_, _, _, rfl⟩
    obtain ⟨n, as, ks, rfl⟩ := this
    exact ⟨_, XmlText.parse_iff.2 (XmlStrict.document_grammar hz (XmlText.rootSpace_iff.1 rfl))⟩
  obtain ⟨v, hv⟩ := read x hx
  obtain ⟨w, hw⟩ := read y hy
  rw [hv] at hw
  exact congrArg XmlDoc.root (Option.some.inj hw)

/-- C55: what is written is a well-formed XML 1.0 document; its elements, attributes and texts are those that the BOM
is encoded as, apart from white space between elements if the output is indented; and it has no other reading. -/
theorem xml_well_formed (e : XMLEncoder) (acc : List (List Char) → List Char → Bool) (b : BOM)
    (h : (e.encode acc b).failed = false) :
    ∃ doc x, encodeXML b = some doc ∧ Spaced doc.root x ∧ (e.pretty = false → x = doc.root) ∧
      XmlStrict.Document (e.encode acc b).writes.flatten x ∧
      ∀ y, XmlStrict.Document (e.encode acc b).writes.flatten y → y = x := by
  obtain ⟨doc, hd, ht⟩ := xml_success_text e acc b h
  obtain ⟨hs, ks, hr⟩ := xml_root_attrs b doc hd
  obtain ⟨y, h1, h2, h3⟩ := XmlText.print_document e.pretty ⟨_, _, _, hr⟩ (root_tidy hd)
  rw [ht]
  refine ⟨doc, y, hd, h1, h2, h3, fun z hz => strict_unique hz h3⟩

section
variable [XmlLang]

theorem xml_parse_written {pretty : Bool} {b : BOM} {doc : XmlDoc} (h : encodeXML b = some doc) :
    ∃ y, Spaced doc.root y ∧ parse (documentText pretty doc) = some ⟨doc.space, y⟩ := by
  obtain ⟨hs, ks, hr⟩ := xml_root_attrs b doc h
  obtain ⟨y, h1, h2, h3⟩ := XmlText.print_document pretty ⟨_, _, _, hr⟩ (root_tidy h)
  refine ⟨y, h1, XmlText.parse_iff.2 ?_⟩
  rw [hr] at h1
  obtain ⟨ls, rfl, -⟩ := spaced_elem.1 h1
  have := XmlStrict.document_grammar h3 root_space
  rw [hs]
  rw [String.ofList_toList] at this
  exact this

/-- Decoding the text of a document is decoding the document. -/
theorem decode_documentText {pretty : Bool} {b : BOM} {doc : XmlDoc} (h : encodeXML b = some doc)
    (hdepth : doc.root.depth ≤ 10000) (order : List (Int × String)) (old : BOM) :
    decodeXMLText order (documentText pretty doc) old = decodeXML order doc old := by
  obtain ⟨y, hy, hp⟩ := xml_parse_written (pretty := pretty) h
  have hn : XmlIO.tooDeep y = false := by
    cases ht : XmlIO.tooDeep y with
    | false => rfl
    | true =>
      have := XmlIO.depth_of_tooDeep y ht
      rw [spaced_depth hy] at this
      omega
  unfold decodeXMLText
  rw [hp]
  simp only [hn, Bool.false_eq_true, if_false]
  unfold decodeXML
  rw [spaced_isElem hy, XSafe.safe (c := X.bom) "bom" _ _ (encodeXML_some h).2 y hy]

/-! ## C54: round trips of texts -/

/-- C54: decoding what the encoder wrote is decoding the document that the BOM is encoded as, for all settings of the
encoder and however the output was cut into pieces. -/
theorem xml_text_decodes (e : XMLEncoder) (acc : List (List Char) → List Char → Bool) (b : BOM) (doc : XmlDoc)
    (h : (e.encode acc b).failed = false) (hd : encodeXML b = some doc) (hdepth : doc.root.depth ≤ 10000)
    (order : List (Int × String)) (old : BOM) :
    decodeXMLText order (e.encode acc b).writes.flatten old = decodeXML order doc old := by
  obtain ⟨doc', hd', ht⟩ := xml_success_text e acc b h
  rw [hd] at hd'
  cases hd'
  rw [ht, decode_documentText hd hdepth]

/-- C54: a BOM is what decoding the text written for it yields exactly if it uses only what XML can represent. -/
theorem xml_text_round_trip (order : List (Int × String)) (hp : order.Perm xmlNamespaces) (e : XMLEncoder)
    (acc : List (List Char) → List Char → Bool) (b : BOM) (h : (e.encode acc b).failed = false) (hi : b.GoInts)
    (hdepth : ∀ doc, encodeXML b = some doc → doc.root.depth ≤ 10000) :
    decodeXMLText order (e.encode acc b).writes.flatten {} = some (asXML b) ↔ b.XPlain := by
  obtain ⟨doc, hd, -⟩ := xml_success_text e acc b h
  rw [xml_text_decodes e acc b doc h hd (hdepth doc hd)]
  exact xml_round_trip_iff order hp b doc hd hi

/-- C54: whatever was written is read again without an error. -/
theorem xml_text_output_decodes (order : List (Int × String)) (e : XMLEncoder)
    (acc : List (List Char) → List Char → Bool) (b : BOM) (h : (e.encode acc b).failed = false) (hi : b.GoInts)
    (hdepth : ∀ doc, encodeXML b = some doc → doc.root.depth ≤ 10000) :
    ∃ b', decodeXMLText order (e.encode acc b).writes.flatten {} = some b' := by
  obtain ⟨doc, hd, -⟩ := xml_success_text e acc b h
  rw [xml_text_decodes e acc b doc h hd (hdepth doc hd)]
  exact xml_output_decodes order b doc hd hi

/-- C54 for `EncodeVersion`: what it writes in version 1.k is read without an error, and the BOM that is read reports
this version and its namespace. -/
theorem xml_text_encodeVersion_decodes (order : List (Int × String)) (hp : order.Perm xmlNamespaces) (e : XMLEncoder)
    (acc : List (List Char) → List Char → Bool) (b : BOM) (k : Nat) (hk : k ≤ 7) (hi : b.GoInts)
    (h : (e.encodeVersion acc b (k + 1)).failed = false)
    (hdepth : ∀ doc, encodeVersionXML b (k + 1) = some doc → doc.root.depth ≤ 10000) :
    ∃ b', decodeXMLText order (e.encodeVersion acc b (k + 1)).writes.flatten {} = some b' ∧
      b'.specVersion = k + 1 ∧ b'.xmlns = namespaceOf k := by
  obtain ⟨doc, hd, -⟩ := xml_success_text e acc (copyAndConvert (k + 1) b) h
  unfold XMLEncoder.encodeVersion
  rw [xml_text_decodes e acc _ doc h hd (hdepth doc hd)]
  exact encodeVersionXML_decodes order hp b k hk doc hi hd

/-! ## C56: the options -/

/-- C56: the setters: `SetPretty` sets what it is called for, `SetEscapeHTML` does nothing; the default is compact. -/
theorem xml_setters (e : XMLEncoder) (x : Bool) :
    (e.setPretty x).pretty = x ∧ e.setEscapeHTML x = e ∧ XMLEncoder.new.pretty = false := ⟨rfl, rfl, rfl⟩

/-- C56: with a writer that accepts everything, whether the encoder succeeds does not depend on the options. -/
theorem xml_options_same (e e' : XMLEncoder) (b : BOM) :
    (e.encode (fun _ _ => true) b).failed = (e'.encode (fun _ _ => true) b).failed := by
  have acc : ∀ (ts old : List (List Char)), Accepted (fun _ _ => true) old ts := by
    intro ts
    induction ts with
    | nil => intro _; trivial
    | cons t ts ih => intro old; exact ⟨rfl, ih _⟩
  have h := xml_success_iff e (fun _ _ => true) b
  have h' := xml_success_iff e' (fun _ _ => true) b
  simp only [acc, and_true] at h h'
  have := h.trans h'.symm
  cases hf : (e.encode (fun _ _ => true) b).failed <;> cases hf' : (e'.encode (fun _ _ => true) b).failed <;>
    simp_all

/-- C56: what is written with any two settings of the options is decoded to the same BOM. -/
theorem xml_options_decode (order : List (Int × String)) (e e' : XMLEncoder)
    (acc acc' : List (List Char) → List Char → Bool) (b old : BOM) (h : (e.encode acc b).failed = false)
    (h' : (e'.encode acc' b).failed = false)
    (hdepth : ∀ doc, encodeXML b = some doc → doc.root.depth ≤ 10000) :
    decodeXMLText order (e.encode acc b).writes.flatten old =
      decodeXMLText order (e'.encode acc' b).writes.flatten old := by
  obtain ⟨doc, hd, -⟩ := xml_success_text e acc b h
  rw [xml_text_decodes e acc b doc h hd (hdepth doc hd), xml_text_decodes e' acc' b doc h' hd (hdepth doc hd)]

/-! ## C57: which texts are read -/

omit [XmlIO] [XmlLang] in
theorem xml_name_decoded {order : List (Int × String)} {doc : XmlDoc} {old b : BOM}
    (h : decodeXML order doc old = some b) : b.xmlName = ⟨doc.space, "bom"⟩ := by
  unfold decodeXML at h
  split at h
  · rw [bom_dec_name] at h
    cases hd : X.bom.dec doc.root old with
    | none => rw [hd] at h; cases h
    | some b' =>
      rw [hd] at h
      have := Option.some.inj h
      rw [← this]
      unfold versionOfNamespace
      split <;> rfl
  · cases h

/-- C57: a text that is not an XML document is refused. -/
theorem xml_malformed_refused (order : List (Int × String)) (t : List Char) (old : BOM)
    (h : ∀ d, ¬ XmlGrammar.Document t d) : decodeXMLText order t old = none := by
  unfold decodeXMLText
  cases hp : parse t with
  | none => rfl
  | some d => exact (h d (XmlText.parse_iff.1 hp)).elim

/-- C57: whatever is decoded was an XML document whose root element is called `bom`. -/
theorem xml_decoded_well_formed (order : List (Int × String)) (t : List Char) (old b : BOM)
    (h : decodeXMLText order t old = some b) :
    ∃ sp as ks, XmlGrammar.Document t ⟨sp, .elem "bom" as ks⟩ ∧ b.xmlName = ⟨sp, "bom"⟩ := by
  unfold decodeXMLText at h
  cases hp : parse t with
  | none => rw [hp] at h; cases h
  | some d =>
    rw [hp] at h
    simp only at h
    split at h
    · cases h
    · obtain ⟨sp, root⟩ := d
      have hn : root.isElem "bom" = true := by
        unfold decodeXML at h
        split at h
        · assumption
        · cases h
      cases root with
      | text s => cases hn
      | elem n as ks =>
        have : n = "bom" := of_decide_eq_true hn
        subst this
        exact ⟨sp, as, ks, XmlText.parse_iff.1 hp, xml_name_decoded h⟩

/-- C57: the document that a text is read as is determined by the grammar; so two texts of one document — which may
differ in comments, in the way characters are escaped, in the white space within tags, and in what follows the root
element — are decoded alike. -/
theorem xml_layout_irrelevant (order : List (Int × String)) (t t' : List Char) (d : XmlDoc) (old : BOM)
    (h : XmlGrammar.Document t d) (h' : XmlGrammar.Document t' d) :
    decodeXMLText order t old = decodeXMLText order t' old := by
  unfold decodeXMLText
  rw [XmlText.parse_iff.2 h, XmlText.parse_iff.2 h']

end
end

/-! ## A case of each hypothesis -/

section Examples
variable [XFloatIO]

/-- An instance of `XmlIO`: everything is written in one piece, and no document is too deep. -/
@[reducible] def onePiece : XmlIO where
  pieces t := [t]
  flatten_pieces t := by simp
  leftover _ _ := []
  tooDeep _ := false
  depth_of_tooDeep _ h := by cases h

/-- A BOM with characters that are escaped. -/
def markupBOM : BOM :=
  { xmlns := "http://cyclonedx.org/schema/bom/1.6", specVersion := 7, version := 0,
    components := .list [{ type := "library", name := "</name>&\n" }] }

/-- What is written for it by default. -/
def markupText : String :=
  "<?xml version=\"1.0\" encoding=\"UTF-8\"?>\n<bom xmlns=\"http://cyclonedx.org/schema/bom/1.6\" version=\"0\"><components><component type=\"library\"><name>&lt;/name&gt;&amp;&#xA;</name></component></components></bom>"

/-- What is written for it with indentation. -/
def markupPretty : String :=
  "<?xml version=\"1.0\" encoding=\"UTF-8\"?>\n<bom xmlns=\"http://cyclonedx.org/schema/bom/1.6\" version=\"0\">\n  <components>\n    <component type=\"library\">\n      <name>&lt;/name&gt;&amp;&#xA;</name>\n    </component>\n  </components>\n</bom>"

/-- The document. -/
def markupDoc : XmlDoc :=
  ⟨"http://cyclonedx.org/schema/bom/1.6", .elem "bom" [("xmlns", "http://cyclonedx.org/schema/bom/1.6"), ("version", "0")]
    [.elem "components" [] [.elem "component" [("type", "library")] [.elem "name" [] [.text "</name>&\n"]]]]⟩

set_option maxRecDepth 20000 in
theorem markup_doc : encodeXML markupBOM = some markupDoc := rfl

theorem markup_print : documentText false markupDoc = markupText.toList ∧
    documentText true markupDoc = markupPretty.toList := by decide +kernel

theorem markup_depth : markupDoc.root.depth ≤ 10000 := by decide +kernel

theorem markup_written : letI := onePiece
    (XMLEncoder.new.encode (fun _ _ => true) markupBOM).failed = false ∧
    (XMLEncoder.new.encode (fun _ _ => true) markupBOM).writes.flatten = markupText.toList ∧
    ((XMLEncoder.new.setPretty true).encode (fun _ _ => true) markupBOM).failed = false ∧
    ((XMLEncoder.new.setPretty true).encode (fun _ _ => true) markupBOM).writes.flatten = markupPretty.toList := by
  let _ := onePiece
  have f : ∀ e : XMLEncoder, (e.encode (fun _ _ => true) markupBOM).failed = false := by
    intro e
    unfold XMLEncoder.encode
    rw [markup_doc]
    rfl
  have w : ∀ e : XMLEncoder, (e.encode (fun _ _ => true) markupBOM).writes.flatten = documentText e.pretty markupDoc := by
    intro e
    obtain ⟨d, hd, ht⟩ := xml_success_text e (fun _ _ => true) markupBOM (f e)
    rw [markup_doc] at hd
    cases hd
    exact ht
  refine ⟨f _, ?_, f _, ?_⟩
  · rw [w]; exact markup_print.1
  · rw [w]; exact markup_print.2

set_option maxRecDepth 20000 in
/-- Both texts are decoded to the BOM. -/
example [XmlLang] : letI := onePiece
    decodeXMLText xmlNamespaces markupText.toList {} = some (asXML markupBOM) ∧
    decodeXMLText xmlNamespaces markupPretty.toList {} = some (asXML markupBOM) := by
  let _ := onePiece
  have hd : decodeXML xmlNamespaces markupDoc {} = some (asXML markupBOM) := rfl
  refine ⟨?_, ?_⟩
  · rw [← markup_print.1, decode_documentText markup_doc markup_depth, hd]
  · rw [← markup_print.2, decode_documentText markup_doc markup_depth, hd]

/-- A license with both an identifier and a name cannot be written: the encoder fails after it has written the
declaration. -/
example : letI := onePiece
    (XMLEncoder.new.encode (fun _ _ => true) doublyNamed).failed = true ∧
    (XMLEncoder.new.encode (fun _ _ => true) doublyNamed).writes ≠ [] := by
  let _ := onePiece
  have hw : ¬ doublyNamed.XWritable := by
    simp [doublyNamed, BOM.XWritable, PSlice.elems, Component.XWritable,
      XWritableComponents, XWritablePedigreeOpt, LicenseChoice.XWritable, License.XWritable]
  constructor
  · cases hf : (XMLEncoder.new.encode (fun _ _ => true) doublyNamed).failed with
    | true => rfl
    | false => exact (hw ((xml_success_iff _ _ _).1 hf).1).elim
  · obtain ⟨ws, h⟩ := xml_header_first XMLEncoder.new (fun _ _ => true) doublyNamed
    rw [h]
    exact List.cons_ne_nil _ _

/-- Texts that are not XML documents: an element that is not closed, an end tag with another name, a value without
quotes, an unknown entity, a character that XML does not allow. -/
example : letI := asciiLang
    ∀ t ∈ ["<bom>", "<bom></Bom>", "<bom a=1/>", "<bom>&nbsp;</bom>", "<bom>&#1;</bom>", "<bom a='<'/>", "</bom>", ""],
      ∀ d, ¬ XmlGrammar.Document t.toList d := by
  let _ := asciiLang
  have no : ∀ t, (parse t).isNone = true → ∀ d, ¬ XmlGrammar.Document t d := by
    intro t h d hd
    rw [XmlText.parse_iff.2 hd] at h
    cases h
  intro t ht
  refine no _ ?_
  revert t
  decide +kernel

set_option maxRecDepth 20000 in
/-- Two texts of one document: with a document type declaration, a comment, other quotes, other references, an
empty-element tag, and something after the root. -/
example : letI := asciiLang
    ∃ d, XmlGrammar.Document "<bom version=\"1\"><x>a&lt;b</x><y></y></bom>".toList d ∧
      XmlGrammar.Document "<!DOCTYPE bom> <bom  version = '&#x31;' ><x>a&#60;b</x><!-- c --><y/></bom > <z".toList d := by
  let _ := asciiLang
  exact ⟨⟨"", .elem "bom" [("version", "1")] [.elem "x" [] [.text "a<b"], .elem "y" [] []]⟩,
    XmlText.parse_iff.1 (by rfl), XmlText.parse_iff.1 (by rfl)⟩

end Examples

end Verif.Props
