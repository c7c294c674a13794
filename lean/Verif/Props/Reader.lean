import Verif.Proofs.Reader
import Verif.Props.JsonText
import Verif.Props.XmlText

/-!
# C75-C78: decoders, readers and bytes
-/

set_option linter.unusedSectionVars false

namespace Verif.Props

open Verif.Reader

/-! ## C75: pieces and failures -/

section
variable [FloatIO]

/-- C75: the JSON decoder succeeds exactly if the reader ends without failing and the whole text that it handed over is
accepted; it then leaves in the variable what decoding that text leaves. -/
theorem json_reader_iff (ps : List Piece) (old b : BOM) :
    (decodeJSONFrom ps old).1 = .ok b ↔ ∃ t, Delivers ps t none ∧ decodeBytes t old = some b := by
  obtain ⟨t, e, h⟩ := delivers_total ps
  have hr := readAll_of_delivers h
  unfold decodeJSONFrom
  constructor
  · intro hd
    cases e with
    | some e =>
      split at hd
      · cases hd
      · next t' rest hq => rw [hq] at hr; cases hr
    | none =>
      split at hd
      · cases hd
      · next t' rest hq =>
        rw [hq] at hr
        cases hr
        cases ht : decodeBytes t old with
        | none => rw [ht] at hd; cases hd
        | some b' => rw [ht] at hd; cases hd; exact ⟨t, h, ht⟩
  · rintro ⟨t', h', ht⟩
    obtain ⟨rfl, rfl⟩ := delivers_unique h h'
    split
    · next hq => rw [hq] at hr; cases hr
    · next t' rest hq =>
      rw [hq] at hr
      cases hr
      rw [ht]

/-- C75: the JSON decoder reports a failure of the reader, as it is, exactly if there is one, no matter what had been
handed over before. -/
theorem json_reader_error_iff (ps : List Piece) (old : BOM) (e : String) :
    (decodeJSONFrom ps old).1 = .error (.reader e) ↔ ∃ t, Delivers ps t (some e) := by
  obtain ⟨t, e', h⟩ := delivers_total ps
  have hr := readAll_of_delivers h
  unfold decodeJSONFrom
  constructor
  · intro hd
    split at hd
    · next x rest hq =>
      rw [hq] at hr
      simp only [Except.error.injEq, DecodeErr.reader.injEq] at hd
      subst hd
      cases e' with
      | none => cases hr
      | some e' => cases hr; exact ⟨t, h⟩
    · split at hd <;> cases hd
  · rintro ⟨t', h'⟩
    obtain ⟨rfl, rfl⟩ := delivers_unique h h'
    split
    · next hq => rw [hq] at hr; cases hr; rfl
    · next hq => rw [hq] at hr; cases hr

/-- C75: how a text is cut into pieces makes no difference to the JSON decoder. -/
theorem json_pieces_irrelevant (ps qs : List Piece) (t : List UInt8) (e : Option String) (old : BOM)
    (h : Delivers ps t e) (h' : Delivers qs t e) : (decodeJSONFrom ps old).1 = (decodeJSONFrom qs old).1 := by
  have hp := readAll_of_delivers h
  have hq := readAll_of_delivers h'
  unfold decodeJSONFrom
  rw [← hq] at hp
  generalize readAll ps = x at hp
  generalize readAll qs = y at hp
  obtain ⟨x, r⟩ := x
  obtain ⟨y, s⟩ := y
  simp only at hp
  subst hp
  cases x with
  | error e => rfl
  | ok t =>
    show (match decodeBytes t old with | none => _ | some b => _ : Except DecodeErr BOM × List Piece).1 = _
    cases h : decodeBytes t old <;> simp only [h]

end

section
variable [XFloatIO] [XmlIO] [XmlText.XmlLang]

theorem decodeXMLFrom_eq (order : List (Int × String)) (ps : List Piece) (old : BOM) (t : List UInt8)
    (h : (readDocument 0 [] ps).map Prod.fst = XmlText.parseBytes t) :
    (decodeXMLFrom order ps old).map Prod.fst = decodeXMLBytes order t old := by
  unfold decodeXMLFrom decodeXMLBytes decodeXMLText
  unfold XmlText.parseBytes at h
  rw [← h]
  cases readDocument 0 [] ps with
  | none => rfl
  | some x =>
    obtain ⟨d, rest⟩ := x
    simp only [Option.map_some]
    split
    · rfl
    · cases decodeXML order d old <;> rfl

/-- C75: the XML decoder decodes what the reader handed over before it ended or failed — a failure is not noticed if
the root element is complete — unless a hundred consecutive calls of `Read` return nothing. -/
theorem xml_reader (order : List (Int × String)) (ps : List Piece) (t : List UInt8) (e : Option String) (old : BOM)
    (h : Delivers ps t e) (hs : ¬ Stalls ps) :
    (decodeXMLFrom order ps old).map Prod.fst = decodeXMLBytes order t old :=
  decodeXMLFrom_eq order ps old t (by
    have := readDocument_delivers h (n := 0) (acc := []) hs XmlText.parseBytes_nil
    rwa [List.nil_append] at this)

/-- C75: how a text is cut into pieces makes no difference to the XML decoder, and neither does the way the reader
ends. -/
theorem xml_pieces_irrelevant (order : List (Int × String)) (ps qs : List Piece) (t : List UInt8) (e e' : Option String)
    (old : BOM) (h : Delivers ps t e) (hs : ¬ Stalls ps) (h' : Delivers qs t e') (hs' : ¬ Stalls qs) :
    (decodeXMLFrom order ps old).map Prod.fst = (decodeXMLFrom order qs old).map Prod.fst := by
  rw [xml_reader order ps t e old h hs, xml_reader order qs t e' old h' hs']

/-- C75: whenever the XML decoder succeeds, for any reader: it has read without an error up to the piece in which the
document is completed, and no further; and it decodes alike every text that begins like the one it has read. -/
theorem xml_reader_sound (order : List (Int × String)) (ps rest : List Piece) (old b : BOM)
    (h : decodeXMLFrom order ps old = some (b, rest)) :
    ∃ init last, ps = init ++ last :: rest ∧ Flawless init ∧
      (∀ d, ¬ XmlGrammar.Document (Utf8.xmlChars (textOf init)) d) ∧
      ∀ u, decodeXMLBytes order (textOf init ++ last.bytes ++ u) old = some b := by
  unfold decodeXMLFrom at h
  cases hr : readDocument 0 [] ps with
  | none => rw [hr] at h; cases h
  | some x =>
    obtain ⟨d, rest'⟩ := x
    rw [hr] at h
    simp only at h
    split at h
    · cases h
    · next hd =>
      obtain ⟨b', hb, e⟩ := Option.map_eq_some_iff.1 h
      simp only [Prod.mk.injEq] at e
      obtain ⟨rfl, rfl⟩ := e
      obtain ⟨init, last, rfl, hf, _, hp, hm⟩ := readDocument_sound hr
      refine ⟨init, last, rfl, hf, ?_, ?_⟩
      · intro d' hd'
        have := hm XmlText.parseBytes_nil
        rw [List.nil_append, XmlText.parseBytes, XmlText.parse_iff.2 hd'] at this
        cases this
      · intro u
        rw [List.nil_append] at hp
        have hp := XmlText.parseBytes_append hp u
        unfold XmlText.parseBytes at hp
        unfold decodeXMLBytes decodeXMLText
        rw [hp]
        simp only [hd, Bool.false_eq_true, if_false]
        exact hb

/-- C75: a reader that ends or fails before the root element is complete is an error. -/
theorem xml_reader_incomplete (order : List (Int × String)) (ps : List Piece) (t : List UInt8) (e : Option String)
    (old : BOM) (h : Delivers ps t e) (ht : ∀ d, ¬ XmlGrammar.Document (Utf8.xmlChars t) d) : decodeXMLFrom order ps old = none := by
  cases hd : decodeXMLFrom order ps old with
  | none => rfl
  | some x =>
    obtain ⟨b, rest⟩ := x
    obtain ⟨init, last, rfl, hf, -, hall⟩ := xml_reader_sound order ps rest old b hd
    have hq : ∃ u, t = textOf init ++ last.bytes ++ u := by
      obtain ⟨s, e', hs⟩ := delivers_total (last :: rest)
      obtain ⟨rfl, -⟩ := delivers_unique h (delivers_append hf hs)
      cases hs with
      | eof => exact ⟨[], by simp⟩
      | fail => exact ⟨[], by simp⟩
      | @more _ s _ _ _ => exact ⟨s, by simp only [List.append_assoc]⟩
    obtain ⟨u, rfl⟩ := hq
    have := hall u
    rw [decodeXMLBytes, xml_malformed_refused order _ old ht] at this
    cases this

/-- C75: what the reader does after the piece in which the document is completed makes no difference. -/
theorem xml_reader_rest (order : List (Int × String)) (ps qs rest : List Piece) (old b : BOM)
    (h : decodeXMLFrom order ps old = some (b, rest)) :
    decodeXMLFrom order (ps ++ qs) old = some (b, rest ++ qs) := by
  unfold decodeXMLFrom at h ⊢
  cases hr : readDocument 0 [] ps with
  | none => rw [hr] at h; cases h
  | some x =>
    obtain ⟨d, rest'⟩ := x
    rw [hr] at h
    rw [readDocument_append qs hr]
    simp only at h ⊢
    split at h
    · cases h
    · next hd =>
      simp only [hd, Bool.false_eq_true, if_false]
      obtain ⟨b', hb, e⟩ := Option.map_eq_some_iff.1 h
      simp only [Prod.mk.injEq] at e
      obtain ⟨rfl, rfl⟩ := e
      rw [hb]
      rfl

/-- C75: a reader of which a hundred consecutive calls return nothing before the root element is complete is an error,
even if it would go on to complete it. -/
theorem xml_reader_stalls (order : List (Int × String)) (ps qs : List Piece) (old : BOM) (hf : Flawless ps)
    (ht : ∀ d, ¬ XmlGrammar.Document (Utf8.xmlChars (textOf ps)) d) :
    decodeXMLFrom order (ps ++ (List.replicate 100 Piece.idle ++ qs)) old = none := by
  have hp : XmlText.parseBytes ([] ++ textOf ps) = none := by
    cases h : XmlText.parseBytes ([] ++ textOf ps) with
    | none => rfl
    | some d => exact absurd (XmlText.parse_iff.1 h) (ht d)
  unfold decodeXMLFrom
  rw [readDocument_stalls qs (by decide) hf hp]

end

/-! ## C76: truncated documents -/

section
variable [FloatIO]

/-- A number is not a BOM. -/
theorem decodeJSON_num (l : NumLit) (old : BOM) : decodeJSON (.num l) old = none := by
  unfold decodeJSON
  split <;> rfl

/-- White space: a byte is a space, a tab, a line feed or a carriage return. -/
def WhiteByte (x : UInt8) : Prop := x = 0x20 ∨ x = 0x09 ∨ x = 0x0A ∨ x = 0x0D

omit [FloatIO] in
theorem ws_bytes : ∀ {t : List Char} {u : List UInt8}, Utf8.Octets t u → JsonText.Ws t → ∀ x ∈ u, WhiteByte x
  | _, _, .nil, _ => by simp
  | _, _, .cons (x := x) (bs := bs) he h, hw => by
    intro b hb
    rcases List.mem_append.1 hb with hb | hb
    · have hc := hw _ List.mem_cons_self
      have hx : ∃ b, x = [b] ∧ WhiteByte b := by
        cases he with
        | @one a h1 h2 =>
          refine ⟨a, rfl, ?_⟩
          unfold WhiteByte
          simp only [← UInt8.toNat_inj]
          rw [← h2]
          rcases hc with rfl | rfl | rfl | rfl <;> simp
        | two h1 h2 h3 =>
          exfalso
          rcases hc with rfl | rfl | rfl | rfl <;> simp at h3 <;> omega
        | three h1 h2 h3 =>
          exfalso
          unfold Utf8.Tail at h1
          rcases hc with rfl | rfl | rfl | rfl <;> simp at h3 <;> omega
        | four h1 h2 h3 h4 =>
          exfalso
          unfold Utf8.Tail at h1
          rcases hc with rfl | rfl | rfl | rfl <;> simp at h4 <;> omega
      obtain ⟨b', rfl, hw'⟩ := hx
      rw [List.mem_singleton.1 hb]
      exact hw'
    · exact ws_bytes h (fun c hc => hw c (List.mem_cons_of_mem _ hc)) b hb

omit [FloatIO] in
theorem octets_of_jsonChars {u : List UInt8} (h : Char.ofNat 0xFFFD ∉ Utf8.jsonChars u) :
    Utf8.Octets (Utf8.jsonChars u) u := by
  refine Utf8.octets_of_runes ?_
  unfold Utf8.jsonChars at h ⊢
  generalize Utf8.runes u = l at h
  induction l with
  | nil => rfl
  | cons o l ih =>
    rw [List.map_cons, List.mem_cons, not_or] at h
    rw [List.map_cons, List.map_cons, ← ih h.2]
    cases o with
    | none => exact absurd rfl h.1
    | some c => rfl

omit [FloatIO] in
theorem white_of_ws {u : List UInt8} (h : JsonText.Ws (Utf8.jsonChars u)) : ∀ x ∈ u, WhiteByte x := by
  refine ws_bytes (octets_of_jsonChars fun hm => ?_) h
  have := h _ hm
  revert this
  decide

theorem decodeBytes_text {t : List UInt8} {old b : BOM} (h : decodeBytes t old = some b) :
    ∃ j, JsonText.Text j (Utf8.jsonChars t) ∧ (∀ l, j ≠ .num l) ∧ decodeJSON j old = some b := by
  unfold decodeBytes decodeText at h
  cases hj : JText.parse (Utf8.jsonChars t) with
  | none => rw [hj] at h; cases h
  | some j =>
    rw [hj] at h
    refine ⟨j, JText.parse_iff.1 hj, ?_, h⟩
    rintro l rfl
    simp only [decodeJSON_num] at h
    cases h

/-- C76: if a JSON text is accepted, none of its proper beginnings is, apart from those that lack only white space at
the end; so a file that was cut short, be it within a character, is never taken for a smaller BOM. -/
theorem json_truncated_refused (t u : List UInt8) (old old' b : BOM) (h : decodeBytes (t ++ u) old = some b)
    (hu : ∃ x ∈ u, ¬ WhiteByte x) : decodeBytes t old' = none := by
  cases hd : decodeBytes t old' with
  | none => rfl
  | some b' =>
    obtain ⟨j, hj, hn, -⟩ := decodeBytes_text h
    obtain ⟨j', hj', hn', -⟩ := decodeBytes_text hd
    rw [JText.text_bytes hj' hn' u] at hj
    obtain ⟨x, hx, hne⟩ := hu
    exact absurd (white_of_ws (JText.text_cut hj hn hj').1 x hx) hne

/-- C76: none of the proper beginnings of what the JSON encoder writes is accepted, apart from the one without the
newline at the end. -/
theorem json_written_truncated [Marking] (e : JSONEncoder) (acc : List Char → Bool) (b old : BOM) (t u : List UInt8)
    (h : (e.encode acc b).error = none) (hw : Utf8.encode (e.encode acc b).writes.flatten = t ++ u) (hu : u ≠ [])
    (hn' : u ≠ [0x0A]) : decodeBytes t old = none := by
  obtain ⟨j, body, hj, hv, he⟩ : ∃ j body, encodeJSON b = .ok j ∧ JsonText.Value j body ∧
      (e.encode acc b).writes = [body ++ ['\n']] := by
    cases hws : (e.encode acc b).writes with
    | nil =>
      rw [hws] at hw
      simp only [Utf8.encode, List.flatten_nil, List.flatMap_nil, List.nil_eq, List.append_eq_nil_iff] at hw
      exact absurd hw.2 hu
    | cons x xs =>
      obtain ⟨j, body, hj, rfl, hv, -, he⟩ := encode_writes (e := e) (acc := acc) (b := b) (t := x)
        (by rw [hws]; exact List.mem_cons_self)
      exact ⟨j, body, hj, hv, by rw [← hws, he]⟩
  rw [he] at hw
  simp only [List.flatten_cons, List.flatten_nil, List.append_nil] at hw
  cases hd : decodeBytes t old with
  | none => rfl
  | some b' =>
    have hn : ∀ l, j ≠ .num l := by
      rintro l rfl
      obtain ⟨ms, -, -, -, -, -, h', -⟩ := json_well_formed e acc b _ (by rw [he]; exact List.mem_cons_self)
      rw [hj] at h'
      cases h'
    obtain ⟨j', hj', hn₂, -⟩ := decodeBytes_text hd
    have hc : Utf8.jsonChars t ++ Utf8.jsonChars u = [] ++ (body ++ ['\n']) := by
      rw [← JText.text_bytes hj' hn₂ u, ← hw, List.nil_append]
      exact Utf8.chars_octets _ (Utf8.encode_octets _)
    obtain ⟨⟨x, hx⟩, -⟩ := JText.value_cut (w := []) (by simp [JsonText.Ws]) hv hn hc hj'
    have hnil : Utf8.jsonChars u ≠ [] := by
      intro h0
      cases u with
      | nil => exact hu rfl
      | cons b u => rw [Utf8.jsonChars, Utf8.runes_cons] at h0; cases h0
    cases x with
    | nil =>
      rw [List.nil_append] at hx
      have ho := octets_of_jsonChars (u := u) (by rw [← hx]; decide)
      rw [← hx] at ho
      cases ho with
      | cons he h0 =>
        cases h0
        cases he with
        | @one a h1 h2 =>
          refine absurd ?_ hn'
          rw [List.append_nil]
          have : a = 0x0A := by rw [← UInt8.toNat_inj, ← h2]; decide
          rw [this]
        | two h1 h2 h3 => simp at h3; omega
        | three h1 h2 h3 => unfold Utf8.Tail at h1; simp at h3; omega
        | four h1 h2 h3 h4 => unfold Utf8.Tail at h1; simp at h4; omega
    | cons c x =>
      simp only [List.cons_append, List.cons.injEq, List.nil_eq, List.append_eq_nil_iff] at hx
      exact absurd hx.2.2 hnil

end

section
variable [XFloatIO] [XmlIO] [XmlText.XmlLang]

/-- C76: none of the proper beginnings of a document that ends with its root element is accepted. -/
theorem xml_truncated_refused (order : List (Int × String)) (t u : List UInt8) (d : XmlDoc) (old : BOM)
    (h : XmlGrammar.Whole (Utf8.xmlChars (t ++ u)) d) (hu : u ≠ []) : decodeXMLBytes order t old = none := by
  have := XmlText.whole_cut_bytes h hu
  unfold XmlText.parseBytes at this
  unfold decodeXMLBytes decodeXMLText
  rw [this]

omit [XFloatIO] [XmlIO] [XmlText.XmlLang] in
theorem xmlChars_encode (t : List Char) : Utf8.xmlChars (Utf8.encode t) = t :=
  Utf8.chars_octets _ (Utf8.encode_octets t)

omit [XFloatIO] [XmlIO] [XmlText.XmlLang] in
theorem encode_append (t u : List Char) : Utf8.encode (t ++ u) = Utf8.encode t ++ Utf8.encode u :=
  List.flatMap_append

omit [XFloatIO] [XmlIO] in
/-- A well-formed document in the sense of the XML recommendation ends with its root element. -/
theorem strict_whole {t : List Char} {n : String} {as : List (String × String)} {ks : List Xml}
    (h : XmlStrict.Document t (.elem n as ks)) {v : List Char}
    (hs : XmlGrammar.Space ⟨[], n.toList⟩ (XmlStrict.qattrs as) v) :
    XmlGrammar.Whole t ⟨String.ofList v, .elem n as ks⟩ := by
  cases h with
  | mk hw he =>
    cases he with
    | mk hn ha _ hc =>
      rw [String.toList_ofList] at hs
      have := XmlGrammar.Whole.elem (XmlStrict.declaration_prolog hw) (XmlStrict.startTag_grammar hn ha)
        (XmlStrict.content_grammar hc) (XmlStrict.endTag_grammar hn) hs
      simp only [XmlStrict.locals_qattrs] at this
      simpa using this

/-- What is written for a BOM ends with its root element. -/
theorem documentText_whole {pretty : Bool} {b : BOM} {doc : XmlDoc} (h : encodeXML b = some doc) :
    ∃ d, XmlGrammar.Whole (documentText pretty doc) d := by
  obtain ⟨hs, ks, hr⟩ := xml_root_attrs b doc h
  obtain ⟨y, h1, h2, h3⟩ := XmlText.print_document pretty ⟨_, _, _, hr⟩ (root_tidy h)
  rw [hr] at h1
  obtain ⟨ls, rfl, -⟩ := spaced_elem.1 h1
  exact ⟨_, strict_whole h3 root_space⟩

/-- C76: what the XML encoder writes ends with the root element, and none of its proper beginnings is accepted. -/
theorem xml_written_truncated (order : List (Int × String)) (e : XMLEncoder)
    (acc : List (List Char) → List Char → Bool) (b old : BOM) (t u : List UInt8) (h : (e.encode acc b).failed = false)
    (hw : Utf8.encode (e.encode acc b).writes.flatten = t ++ u) (hu : u ≠ []) : decodeXMLBytes order t old = none := by
  obtain ⟨doc, hd, ht⟩ := xml_success_text e acc b h
  obtain ⟨d, hW⟩ := documentText_whole (pretty := e.pretty) hd
  rw [← ht, ← xmlChars_encode (List.flatten _), hw] at hW
  exact xml_truncated_refused order t u d old hW hu

/-- C76: if the writer refuses something on the way, what it was given before is not accepted. -/
theorem xml_interrupted (order : List (Int × String)) (e : XMLEncoder) (acc : List (List Char) → List Char → Bool)
    (b old : BOM) (t : List UInt8) (x : UInt8) (u : List UInt8) (hb : b.XWritable)
    (hw : Utf8.encode (e.encode acc b).writes.flatten = t ++ x :: u) : decodeXMLBytes order t old = none := by
  cases hd : encodeXML b with
  | none => rw [← xml_encodes_iff, hd] at hb; obtain ⟨_, hb⟩ := hb; cases hb
  | some doc =>
    obtain ⟨r, hr⟩ := xml_writes_prefix e acc b doc hd
    obtain ⟨d, hW⟩ := documentText_whole (pretty := e.pretty) hd
    rw [← hr, ← xmlChars_encode (_ ++ _), encode_append, hw, List.append_assoc] at hW
    exact xml_truncated_refused order t _ d old hW (by simp)

end

/-! ## C77: several documents -/

section
variable [FloatIO]

/-- C77: a JSON decoder whose reader has come to its end decodes nothing any more. -/
theorem json_second_decode (ps : List Piece) (old old' : BOM) (h : Flawless ps) :
    (decodeJSONFrom (decodeJSONFrom ps old).2 old').1 = .error .document := by
  have rest : ∀ {ps : List Piece}, Flawless ps → (readAll ps).2 = [] := by
    intro ps
    induction ps with
    | nil => intro _; rfl
    | cons p ps ih =>
      intro h
      simp only [readAll, h p List.mem_cons_self]
      exact ih fun q hq => h q (List.mem_cons_of_mem _ hq)
  have : (decodeJSONFrom ps old).2 = [] := by
    have := rest h
    unfold decodeJSONFrom
    generalize readAll ps = x at this
    obtain ⟨x, r⟩ := x
    simp only at this
    subst this
    cases x with
    | error e => rfl
    | ok t =>
      show (match decodeBytes t old with | none => _ | some b => _ : Except DecodeErr BOM × List Piece).2 = _
      cases hd : decodeBytes t old <;> simp only [hd]
  rw [this]
  have : decodeBytes [] old' = none := by
    unfold decodeBytes decodeText Utf8.jsonChars
    rw [Utf8.runes_nil]
    rfl
  simp only [decodeJSONFrom, readAll, this]

/-- C77: two JSON documents, one after the other, are refused. -/
theorem json_two_refused (t u : List UInt8) (old old₁ old₂ b₁ b₂ : BOM) (h₁ : decodeBytes t old₁ = some b₁)
    (h₂ : decodeBytes u old₂ = some b₂) : decodeBytes (t ++ u) old = none := by
  cases h : decodeBytes (t ++ u) old with
  | none => rfl
  | some b =>
    obtain ⟨j, hj, hn, -⟩ := decodeBytes_text h
    obtain ⟨j', hj', hn', -⟩ := decodeBytes_text h₁
    rw [JText.text_bytes hj' hn' u] at hj
    have hw := (JText.text_cut hj hn hj').1
    have : JText.parse (Utf8.jsonChars u) = none := by
      have := JText.skipWs_append [] hw
      rw [List.append_nil] at this
      unfold JText.parse
      rw [this]
      rfl
    unfold decodeBytes decodeText at h₂
    rw [this] at h₂
    cases h₂

end

section
variable [XFloatIO] [XmlIO] [XmlText.XmlLang]

/-- A document with what is decoded from it: its text ends with the root element, and is decoded into a variable with
the value `old` as `result`. -/
structure Decodes (order : List (Int × String)) (text : List UInt8) (old result : BOM) : Prop where
  whole : ∃ d, XmlGrammar.Whole (Utf8.xmlChars text) d
  decodes : decodeXMLBytes order text old = some result

theorem decodeXMLFrom_of {order : List (Int × String)} {text : List UInt8} {old result : BOM} {ps rest : List Piece}
    (h : Decodes order text old result)
    (hr : ∀ d, XmlGrammar.Whole (Utf8.xmlChars text) d → readDocument 0 [] ps = some (d, rest)) :
    decodeXMLFrom order ps old = some (result, rest) := by
  obtain ⟨⟨d, hW⟩, hd⟩ := h
  have hp := XmlText.whole_parse hW []
  rw [List.append_nil] at hp
  unfold decodeXMLBytes decodeXMLText at hd
  rw [hp] at hd
  unfold decodeXMLFrom
  rw [hr d hW]
  simp only at hd ⊢
  split at hd
  · cases hd
  · next hn => simp only [hn, Bool.false_eq_true, if_false, hd]; rfl

/-- A reader that is an `io.ByteReader` (such as `bytes.Buffer`, `strings.Reader`, `bufio.Reader`) with a text. -/
def byteReader (t : List UInt8) : List Piece := t.map fun c => ⟨[c], none⟩

theorem whole_ne_nil {d : XmlDoc} : ¬ XmlGrammar.Whole (Utf8.xmlChars []) d := by
  unfold Utf8.xmlChars
  rw [Utf8.runes_nil]
  intro h
  rw [List.map_nil] at h
  have := XmlText.whole_parse h []
  rw [List.append_nil, XmlText.parse_nil] at this
  cases this

/-- C77: from an `io.ByteReader` with several XML documents, one after the other, a decoder decodes one with each call
of `Decode`. -/
theorem xml_byte_reader_documents (order : List (Int × String)) : ∀ (docs : List (List UInt8 × BOM × BOM)),
    (∀ d ∈ docs, Decodes order d.1 d.2.1 d.2.2) →
      decodeXMLInto order (docs.map (·.2.1)) (byteReader (docs.map (·.1)).flatten) = docs.map (·.2.2)
  | [], _ => rfl
  | (t, old, b) :: docs, h => by
    have h1 : Decodes order t old b := h _ List.mem_cons_self
    have ih := xml_byte_reader_documents order docs fun d hd => h d (List.mem_cons_of_mem _ hd)
    have := decodeXMLFrom_of (ps := byteReader ((t :: docs.map (·.1)).flatten))
      (rest := byteReader (docs.map (·.1)).flatten) h1 (by
        intro d hW
        rw [List.flatten_cons, byteReader, List.map_append]
        refine readDocument_bytes ?_ (by simpa using hW)
        rintro rfl
        exact whole_ne_nil hW)
    simp only [List.map_cons, decodeXMLInto, this, ih]

/-- C77: the same if each call of `Read` returns one whole document. -/
theorem xml_one_piece_each (order : List (Int × String)) : ∀ (docs : List (List UInt8 × BOM × BOM)),
    (∀ d ∈ docs, Decodes order d.1 d.2.1 d.2.2) →
      decodeXMLInto order (docs.map (·.2.1)) (docs.map fun d => ⟨d.1, none⟩) = docs.map (·.2.2)
  | [], _ => rfl
  | (t, old, b) :: docs, h => by
    have h1 : Decodes order t old b := h _ List.mem_cons_self
    have ih := xml_one_piece_each order docs fun d hd => h d (List.mem_cons_of_mem _ hd)
    have := decodeXMLFrom_of (ps := ⟨t, none⟩ :: docs.map fun d => ⟨d.1, none⟩)
      (rest := docs.map fun d => ⟨d.1, none⟩) h1 (by
        intro d hW
        have hp : XmlText.parseBytes t = some d := by
          have := XmlText.whole_parse hW []
          rwa [List.append_nil] at this
        have hne : t ≠ [] := by rintro rfl; exact whole_ne_nil hW
        simp [readDocument, hne, hp])
    simp only [List.map_cons, decodeXMLInto, this, ih]

/-- C77: from any other reader, what a call of `Read` returns after the end of a document is lost: the next call of
`Decode` does not see it. -/
theorem xml_rest_of_piece_lost (order : List (Int × String)) (t u : List UInt8) (e : Option ReadErr) (ps : List Piece)
    (old b : BOM) (h : Decodes order t old b) : decodeXMLFrom order (⟨t ++ u, e⟩ :: ps) old = some (b, ps) :=
  decodeXMLFrom_of h (by
    intro d hW
    have hp : XmlText.parseBytes t = some d := by
      have := XmlText.whole_parse hW []
      rwa [List.append_nil] at this
    have hp := XmlText.parseBytes_append hp u
    have hne : t ≠ [] := by rintro rfl; exact whole_ne_nil hW
    simp [readDocument, hne, hp])

/-- C77, C75: what the XML encoder writes is such a document, and a decoder whose reader is given the pieces that were
written, as they were written, decodes it. -/
theorem xml_written_decodes (order : List (Int × String)) (e : XMLEncoder)
    (acc : List (List Char) → List Char → Bool) (b old r : BOM) (doc : XmlDoc) (h : (e.encode acc b).failed = false)
    (hd : encodeXML b = some doc) (hdepth : doc.root.depth ≤ 10000) (hr : decodeXML order doc old = some r) :
    Decodes order (Utf8.encode (e.encode acc b).writes.flatten) old r := by
  obtain ⟨doc', hd', ht⟩ := xml_success_text e acc b h
  rw [hd] at hd'
  cases hd'
  rw [ht]
  exact ⟨by rw [xmlChars_encode]; exact documentText_whole hd,
    by rw [decodeXMLBytes, xmlChars_encode, decode_documentText hd hdepth, hr]⟩

/-- C75: what was written piece by piece is decoded if a reader returns it, piece by piece. -/
theorem xml_pipe (order : List (Int × String)) (ws : List (List UInt8)) (old : BOM) (hne : ∀ t ∈ ws, t ≠ []) :
    (decodeXMLFrom order (ws.map fun t => ⟨t, none⟩) old).map Prod.fst = decodeXMLBytes order ws.flatten old := by
  have hf : Flawless (ws.map fun t => (⟨t, none⟩ : Piece)) := by
    intro p hp
    obtain ⟨t, -, rfl⟩ := List.mem_map.1 hp
    rfl
  have ht : textOf (ws.map fun t => (⟨t, none⟩ : Piece)) = ws.flatten := by
    simp [textOf, List.map_map, Function.comp_def]
  rw [← ht]
  refine xml_reader order _ _ none old (delivers_flawless hf) ?_
  rintro ⟨a, b, e⟩
  have hm : Piece.idle ∈ ws.map fun t => (⟨t, none⟩ : Piece) := by
    rw [e]
    exact List.mem_append_left _ (List.mem_append_right _ (List.mem_replicate.2 ⟨by decide, rfl⟩))
  obtain ⟨t, h1, h2⟩ := List.mem_map.1 hm
  exact hne t h1 (congrArg Piece.bytes h2)

end

/-! ## A case of each hypothesis -/

section Examples

/-- The bytes of a string. -/
def utf8 (s : String) : List UInt8 := Utf8.encode s.toList

/-- A reader that hands over a text in three pieces, one of them empty, and fails. -/
def brokenReader : List Piece := [⟨utf8 "{\"bom", none⟩, .idle, ⟨utf8 "Format\"", some (.fail "reset")⟩]

example : Delivers brokenReader (utf8 "{\"bomFormat\"") (some "reset") ∧ ¬ Stalls brokenReader := by
  refine ⟨.more (s := utf8 "Format\"") (.more (t := []) .fail), ?_⟩
  rintro ⟨a, b, e⟩
  have := congrArg List.length e
  simp [brokenReader] at this
  omega

/-- The JSON decoder reports the failure. -/
example [FloatIO] : (decodeJSONFrom brokenReader {}).1 = .error (.reader "reset") := rfl

theorem decodeBytes_encode [FloatIO] (t : List Char) (old : BOM) : decodeBytes (Utf8.encode t) old = decodeText t old := by
  unfold decodeBytes Utf8.jsonChars
  rw [Utf8.chars_octets _ (Utf8.encode_octets t)]

set_option maxRecDepth 20000 in
theorem empty_decodes [FloatIO] : decodeBytes (utf8 "{}") {} = some {} := by
  have hd : decodeJSON (.obj []) {} = some {} := rfl
  rw [utf8, decodeBytes_encode]
  unfold decodeText
  rw [show JText.parse "{}".toList = some (.obj []) from rfl]
  exact hd

set_option maxRecDepth 20000 in
/-- The JSON decoder reports a failure even if it comes after a complete document; the document alone is accepted. -/
example [FloatIO] : (decodeJSONFrom [⟨utf8 "{}", none⟩, ⟨[], some (.fail "reset")⟩] {}).1 = .error (.reader "reset") ∧
    (decodeJSONFrom [⟨utf8 "{", none⟩, ⟨utf8 "}", none⟩] {}).1 = .ok {} :=
  ⟨(json_reader_error_iff _ _ _).2 ⟨_, .more .fail⟩,
    (json_reader_iff _ _ _).2 ⟨_, .more (.more .done), empty_decodes⟩⟩

set_option maxRecDepth 20000 in
/-- An accepted text and a beginning of it that lacks more than white space. -/
example [FloatIO] : (∃ b, decodeBytes (utf8 "{" ++ utf8 "}") {} = some b) ∧ ∃ x ∈ utf8 "}", ¬ WhiteByte x :=
  ⟨⟨_, empty_decodes⟩, 0x7D, by decide +kernel, by unfold WhiteByte; decide⟩

/-- A character in two pieces: the reader delivers its encoding all the same. -/
example : Delivers [⟨[0xC3], none⟩, ⟨[0xA9], none⟩] (utf8 "é") none ∧ Utf8.Octets ['é'] [0xC3, 0xA9] :=
  ⟨.more (.more .done), .cons (.two (by decide) (by unfold Utf8.Tail; decide) (by decide)) .nil⟩

/-- What is written for a BOM, divided. -/
example [FloatIO] : letI := noMarks
    ∃ t u, Utf8.encode (JSONEncoder.new.encode (fun _ => true) escapedBOM).writes.flatten = t ++ u ∧ u ≠ [] ∧ u ≠ [0x0A] ∧
      u.length = 4 := by
  let _ := noMarks
  refine ⟨(Utf8.encode escapedText.toList).take ((Utf8.encode escapedText.toList).length - 4),
    (Utf8.encode escapedText.toList).drop ((Utf8.encode escapedText.toList).length - 4), ?_, ?_, ?_, ?_⟩
  · rw [escaped_written.1, List.take_append_drop, List.flatten_cons, List.flatten_nil, List.append_nil]
  · decide +kernel
  · decide +kernel
  · decide +kernel

variable [XFloatIO]

set_option maxRecDepth 20000 in
theorem markup_decodes [XmlText.XmlLang] : letI := onePiece
    Decodes xmlNamespaces (utf8 markupText) {} (asXML markupBOM) := by
  let _ := onePiece
  have hd : decodeXML xmlNamespaces markupDoc {} = some (asXML markupBOM) := rfl
  have := xml_written_decodes xmlNamespaces XMLEncoder.new (fun _ _ => true) markupBOM {} (asXML markupBOM) markupDoc
    markup_written.1 markup_doc markup_depth hd
  rwa [markup_written.2.1] at this

/-- A failure after the document is not noticed by the XML decoder. -/
example [XmlText.XmlLang] : letI := onePiece
    (decodeXMLFrom xmlNamespaces [⟨utf8 markupText, some (.fail "reset")⟩] {}) = some (asXML markupBOM, []) := by
  let _ := onePiece
  have := xml_rest_of_piece_lost xmlNamespaces (utf8 markupText) [] (some (.fail "reset")) [] {} _ markup_decodes
  rwa [List.append_nil] at this

/-- Two documents in an `io.ByteReader` are decoded; of two documents in one piece of another reader, the second one is
lost. -/
example [XmlText.XmlLang] : letI := onePiece
    decodeXMLInto xmlNamespaces [{}, {}] (byteReader (utf8 markupText ++ utf8 markupText)) =
      [asXML markupBOM, asXML markupBOM] ∧
    decodeXMLInto xmlNamespaces [{}, {}] [⟨utf8 markupText ++ utf8 markupText, none⟩] = [asXML markupBOM] := by
  let _ := onePiece
  have h := markup_decodes
  generalize utf8 markupText = t at h
  generalize asXML markupBOM = r at h
  constructor
  · have := xml_byte_reader_documents xmlNamespaces [(t, {}, r), (t, {}, r)] (by simp [h])
    simpa using this
  · have := xml_rest_of_piece_lost xmlNamespaces t t none [] {} _ h
    simp only [decodeXMLInto, this]
    rfl

/-- A reader that stalls within a document. -/
example : letI := asciiLang
    Flawless [⟨utf8 "<bom>", none⟩] ∧ ∀ d, ¬ XmlGrammar.Document (Utf8.xmlChars (textOf [⟨utf8 "<bom>", none⟩])) d := by
  let _ := asciiLang
  refine ⟨fun p hp => by rw [List.mem_singleton.1 hp], fun d hd => ?_⟩
  have h := XmlText.parse_iff.2 hd
  have e : Utf8.xmlChars (textOf [⟨utf8 "<bom>", none⟩]) = "<bom>".toList := by
    simp only [textOf, List.map_cons, List.map_nil, List.flatten_cons, List.flatten_nil, List.append_nil]
    exact xmlChars_encode _
  have : (XmlText.parse "<bom>".toList).isNone = true := by decide +kernel
  rw [← e, h] at this
  cases this

end Examples

end Verif.Props
