import Verif.Json.Encoder
import Verif.Json.TextLaws
import Verif.Props.EncodeVersion
import Verif.Props.JsonContent

/-!
# C30, C37, C38, C47, C48 and the texts of C31, C32, C33, C36, C43
-/

namespace Verif.Props
open JText JsonText

set_option linter.unusedSectionVars false

section
variable [FloatIO] [Marking]

/-- What is written, if anything is. -/
theorem encode_writes {e : JSONEncoder} {acc : List Char → Bool} {b : BOM} {t : List Char}
    (h : t ∈ (e.encode acc b).writes) : ∃ j body, encodeJSON b = .ok j ∧ t = body ++ ['\n'] ∧ Value j body ∧
      body = render e.pretty e.escapeHTML 0 (Marking.mark b j) ∧ (e.encode acc b).writes = [t] := by
  unfold JSONEncoder.encode at h ⊢
  cases hj : encodeJSON b with
  | error err => rw [hj] at h; cases h
  | ok j =>
    rw [hj] at h
    simp only [List.mem_singleton] at h ⊢
    subst h
    have := render_value e.pretty e.escapeHTML 0 (Marking.mark b j)
    rw [Marking.erase_mark] at this
    exact ⟨j, _, rfl, rfl, this, rfl, rfl⟩

theorem newline_is_ws : Ws ['\n'] := by simp [Ws]

/-- The text of a document is read back as the document. -/
theorem parse_written {j : Json} {body : List Char} (h : Value j body) : parse (body ++ ['\n']) = some j := by
  refine parse_iff.2 ?_
  have := Text.mk nil_ws h newline_is_ws
  simpa using this

theorem decodeText_of_text {j : Json} {t : List Char} (h : Text j t) (a : BOM) : decodeText t a = decodeJSON j a := by
  unfold decodeText
  rw [parse_iff.2 h]

theorem text_of_written {j : Json} {body : List Char} (h : Value j body) : Text j (body ++ ['\n']) :=
  parse_iff.1 (parse_written h)

theorem decodeText_written {e : JSONEncoder} {acc : List Char → Bool} {b : BOM} {t : List Char} {j : Json} {a : BOM}
    (h : t ∈ (e.encode acc b).writes) (hj : encodeJSON b = .ok j) : decodeText t a = decodeJSON j a := by
  obtain ⟨j', body, hj', rfl, hv, -⟩ := encode_writes h
  rw [hj] at hj'
  cases hj'
  exact decodeText_of_text (text_of_written hv) a

/-! ## C30 -/

/-- C30: below 1.2 the encoder reports that the version is not supported and does not call `Write`; for other
versions it never reports that. -/
theorem json_refused_iff (e : JSONEncoder) (acc : List Char → Bool) (b : BOM) :
    e.encode acc b = { writes := [], error := some (.encode .unsupportedVersion) } ↔ b.specVersion < SpecVersion1_2 := by
  rw [← json_unsupported_iff]
  unfold JSONEncoder.encode
  cases encodeJSON b <;> simp

/-- C30 for `EncodeVersion`. -/
theorem json_version_refused_iff (e : JSONEncoder) (acc : List Char → Bool) (b : BOM) (v : Int) :
    e.encodeVersion acc b v = { writes := [], error := some (.encode .unsupportedVersion) } ↔ v < SpecVersion1_2 := by
  rw [JSONEncoder.encodeVersion, json_refused_iff, copyAndConvert, convert_specVersion]

/-- C30: the encoder calls `Write` at most once; unless the writer itself failed, it writes nothing exactly when
it reports an error. -/
theorem json_all_or_nothing (e : JSONEncoder) (acc : List Char → Bool) (b : BOM) :
    (∃ err, e.encode acc b = { writes := [], error := some (.encode err) }) ∨
    (∃ t, e.encode acc b = { writes := [t], error := none } ∧ acc t = true) ∨
    (∃ t, e.encode acc b = { writes := [t], error := some .writer } ∧ acc t = false) := by
  unfold JSONEncoder.encode
  cases hj : encodeJSON b with
  | error err => exact .inl ⟨err, rfl⟩
  | ok j =>
    cases ha : acc (render e.pretty e.escapeHTML 0 (Marking.mark b j) ++ ['\n']) with
    | true => exact .inr (.inl ⟨_, by simp [ha], ha⟩)
    | false => exact .inr (.inr ⟨_, by simp [ha], ha⟩)

/-! ## C38 -/

/-- C38: what is written is, in the sense of RFC 8259, the text of one object, and a newline; the text denotes
no other value; and it is read back as the encoded structure. -/
theorem json_well_formed (e : JSONEncoder) (acc : List Char → Bool) (b : BOM) (t : List Char)
    (h : t ∈ (e.encode acc b).writes) :
    ∃ ms body, t = body ++ ['\n'] ∧ Value (.obj ms) body ∧ (∀ j, Text j t → j = .obj ms) ∧
      parse t = some (.obj ms) ∧ encodeJSON b = .ok (.obj ms) ∧
      ("specVersion", .str (SpecVersion.str b.specVersion)) ∈ ms := by
  obtain ⟨j, body, hj, rfl, hv, -⟩ := encode_writes h
  obtain ⟨-, he⟩ := encodeJSON_ok hj
  obtain ⟨ms, rfl, hm⟩ := bom_members he
  exact ⟨ms, body, rfl, hv, fun j' h' => text_unique h' (text_of_written hv), parse_written hv, hj, hm⟩

/-! ## C37 -/

/-- C37: with any two settings of the options, either both encoders report the same error and write nothing, or
both write a text, and the two texts denote the same document. -/
theorem json_options_same (e e' : JSONEncoder) (acc acc' : List Char → Bool) (b : BOM) :
    (∃ err, e.encode acc b = { writes := [], error := some (.encode err) } ∧
      e'.encode acc' b = { writes := [], error := some (.encode err) }) ∨
    (∃ t t' j, (e.encode acc b).writes = [t] ∧ (e'.encode acc' b).writes = [t'] ∧ Text j t ∧ Text j t') := by
  unfold JSONEncoder.encode
  cases hj : encodeJSON b with
  | error err => exact .inl ⟨err, rfl, rfl⟩
  | ok j =>
    refine .inr ⟨_, _, j, rfl, rfl, ?_, ?_⟩
    · have := render_value e.pretty e.escapeHTML 0 (Marking.mark b j)
      rw [Marking.erase_mark] at this
      exact text_of_written this
    · have := render_value e'.pretty e'.escapeHTML 0 (Marking.mark b j)
      rw [Marking.erase_mark] at this
      exact text_of_written this

/-- C37: with any two settings of the options, what is written decodes to the same BOM. -/
theorem json_options_decode (e e' : JSONEncoder) (acc acc' : List Char → Bool) (b a : BOM) (t t' : List Char)
    (h : t ∈ (e.encode acc b).writes) (h' : t' ∈ (e'.encode acc' b).writes) : decodeText t a = decodeText t' a := by
  obtain ⟨j, body, hj, rfl, hv, -⟩ := encode_writes h
  obtain ⟨j', body', hj', rfl, hv', -⟩ := encode_writes h'
  rw [hj] at hj'
  cases hj'
  rw [decodeText_of_text (text_of_written hv), decodeText_of_text (text_of_written hv')]

/-- C37: the setters set what they are called for, and nothing else; the default is compact and escaped. -/
theorem json_setters (e : JSONEncoder) (x : Bool) :
    (e.setPretty x).pretty = x ∧ (e.setPretty x).escapeHTML = e.escapeHTML ∧
    (e.setEscapeHTML x).escapeHTML = x ∧ (e.setEscapeHTML x).pretty = e.pretty ∧
    JSONEncoder.new.pretty = false ∧ JSONEncoder.new.escapeHTML = true := ⟨rfl, rfl, rfl, rfl, rfl, rfl⟩

/-! ## C48 -/

/-- C48: with `SetEscapeHTML(true)`, which is the default, the output contains none of `<`, `>` and `&`. -/
theorem json_html_safe (e : JSONEncoder) (acc : List Char → Bool) (b : BOM) (t : List Char)
    (he : e.escapeHTML = true) (h : t ∈ (e.encode acc b).writes) : ∀ c ∈ t, c ≠ '<' ∧ c ≠ '>' ∧ c ≠ '&' := by
  obtain ⟨j, body, -, rfl, -, hb, -⟩ := encode_writes h
  intro c hc
  rcases List.mem_append.1 hc with hc | hc
  · rw [hb, he] at hc
    exact render_html _ _ _ c hc
  · rw [List.mem_singleton.1 hc]; decide

/-- C48: without indentation, which is the default, the output is one line: no character before the final newline
is a control character. -/
theorem json_one_line (e : JSONEncoder) (acc : List Char → Bool) (b : BOM) (t : List Char)
    (he : e.pretty = false) (h : t ∈ (e.encode acc b).writes) :
    ∃ body, t = body ++ ['\n'] ∧ ∀ c ∈ body, 0x20 ≤ c.toNat := by
  obtain ⟨j, body, -, rfl, -, hb, -⟩ := encode_writes h
  refine ⟨body, rfl, ?_⟩
  rw [hb, he]
  exact render_one_line _ _ _

/-- C48: whatever the options, the output contains neither U+2028 nor U+2029, which JavaScript took for the ends
of lines. -/
theorem json_no_separators (e : JSONEncoder) (acc : List Char → Bool) (b : BOM) (t : List Char)
    (h : t ∈ (e.encode acc b).writes) : ∀ c ∈ t, c.toNat ≠ 0x2028 ∧ c.toNat ≠ 0x2029 := by
  obtain ⟨j, body, -, rfl, -, hb, -⟩ := encode_writes h
  intro c hc
  rcases List.mem_append.1 hc with hc | hc
  · rw [hb] at hc
    obtain ⟨h1, h2⟩ := render_no_separators _ _ _ _ c hc
    exact ⟨fun e => h1 (by rw [← e, Char.ofNat_toNat]), fun e => h2 (by rw [← e, Char.ofNat_toNat])⟩
  · rw [List.mem_singleton.1 hc]; decide

/-! ## C47 -/

/-- C47: a text that is not JSON is refused. -/
theorem json_malformed_refused (t : List Char) (a : BOM) (h : ∀ j, ¬ Text j t) : decodeText t a = none := by
  unfold decodeText
  cases hp : parse t with
  | none => rfl
  | some j => exact (h j (parse_iff.1 hp)).elim

/-- C47: two texts of one document — which may differ in white space and in the way strings are escaped — are
decoded alike. -/
theorem json_layout_irrelevant (t t' : List Char) (j : Json) (a : BOM) (h : Text j t) (h' : Text j t') :
    decodeText t a = decodeText t' a := by
  rw [decodeText_of_text h, decodeText_of_text h']

/-- C47: whatever is decoded was well-formed JSON, an object or `null`, and at most 10000 levels deep. -/
theorem json_decoded_well_formed (t : List Char) (a b : BOM) (h : decodeText t a = some b) :
    ∃ j, Text j t ∧ j.depth ≤ maxNestingDepth ∧ (j = .null ∨ ∃ ms, j = .obj ms) := by
  unfold decodeText at h
  cases hp : parse t with
  | none => rw [hp] at h; cases h
  | some j =>
    rw [hp] at h
    simp only [decodeJSON] at h
    split at h
    · next hd =>
      refine ⟨j, parse_iff.1 hp, hd, ?_⟩
      cases j with
      | null => exact .inl rfl
      | obj ms => exact .inr ⟨ms, rfl⟩
      | bool _ => exact absurd h (by intro h; cases h)
      | num _ => exact absurd h (by intro h; cases h)
      | str _ => exact absurd h (by intro h; cases h)
      | arr _ => exact absurd h (by intro h; cases h)
    · cases h

/-! ## C32, C33, C31, C43 for texts -/

/-- C32 for texts: a BOM is what decoding the text written for it yields exactly if it is plain (up to the two
fields that JSON does not have), for all settings of the options. -/
theorem json_text_round_trip (e : JSONEncoder) (acc : List Char → Bool) (b : BOM) (t : List Char)
    (h : t ∈ (e.encode acc b).writes) (hdepth : ∀ j, Text j t → j.depth ≤ maxNestingDepth) :
    decodeText t {} = some (withoutXML b) ↔ (withoutXML b).Plain := by
  obtain ⟨j, body, hj, rfl, hv, -⟩ := encode_writes h
  rw [decodeText_of_text (text_of_written hv)]
  exact json_round_trip b j hj (hdepth j (text_of_written hv))

/-- C33 for texts without repeated member names. -/
theorem json_text_stable_partial (e : JSONEncoder) (acc : List Char → Bool) (t t' : List Char) (b : BOM)
    (hdist : ∀ j, Text j t → j.Distinct) (hd : decodeText t {} = some b)
    (h : t' ∈ (e.encode acc b).writes) (hdepth : ∀ j, Text j t' → j.depth ≤ maxNestingDepth) :
    decodeText t' {} = some b := by
  obtain ⟨j', body, hj, rfl, hv, -⟩ := encode_writes h
  obtain ⟨j, hj0, -⟩ := json_decoded_well_formed t {} b hd
  rw [decodeText_of_text hj0] at hd
  rw [decodeText_of_text (text_of_written hv)]
  exact json_stable_partial j j' b (hdist j hj0) hd hj (hdepth j' (text_of_written hv))

/-- C31 for texts: what `EncodeVersion` does, error and output, is what `Encode` does for the converted copy. -/
theorem json_text_encodeVersion (e : JSONEncoder) (acc : List Char → Bool) (b : BOM) (v : Int) :
    e.encodeVersion acc b v = e.encode acc (copyAndConvert v b) ∧
    (b.Copyable → e.encodeVersion acc b v = e.encode acc (convert v b)) := by
  refine ⟨rfl, fun h => ?_⟩
  rw [JSONEncoder.encodeVersion, copyAndConvert, (BOM.copy_eq b).2 h]

/-- C43 for texts: what `EncodeVersion` writes decodes to the canonical form of the converted copy. -/
theorem json_text_encodeVersion_decodes (e : JSONEncoder) (acc : List Char → Bool) (b : BOM) (v : Int)
    (t : List Char) (hr : b.Regular) (hv : v ≤ SpecVersion1_7) (h : t ∈ (e.encodeVersion acc b v).writes)
    (hdepth : ∀ j, Text j t → j.depth ≤ maxNestingDepth) :
    decodeText t {} = some (convert v b.copy).canonical := by
  obtain ⟨j, body, hj, rfl, hval, -⟩ := encode_writes h
  rw [decodeText_of_text (text_of_written hval)]
  exact encodeVersion_decodes b v j hr hv hj (hdepth j (text_of_written hval))

end

/-! ## A case of each hypothesis -/

section Examples
variable [FloatIO]

/-- No marks. -/
@[reducible] def noMarks : Marking := Marking.none erase_plain

/-- A BOM with a character that is escaped. -/
def escapedBOM : BOM :=
  { bomFormat := "CycloneDX", specVersion := 7, version := 1,
    components := .list [{ type := "library", name := "a<b\n" }] }

/-- What is written for it by default. -/
def escapedText : String :=
  "{\"bomFormat\":\"CycloneDX\",\"specVersion\":\"1.6\",\"version\":1,\"components\":[{\"type\":\"library\",\"name\":\"a\\u003cb\\n\"}]}\n"

/-- What is written for it with indentation and without HTML escaping. -/
def prettyText : String :=
  "{\n  \"bomFormat\": \"CycloneDX\",\n  \"specVersion\": \"1.6\",\n  \"version\": 1,\n  \"components\": [\n    {\n      \"type\": \"library\",\n      \"name\": \"a<b\\n\"\n    }\n  ]\n}\n"

/-- The document. -/
def escapedDoc : Json :=
  .obj [("bomFormat", .str "CycloneDX"), ("specVersion", .str "1.6"), ("version", .num (.ofInt 1)),
    ("components", .arr [.obj [("type", .str "library"), ("name", .str "a<b\n")]])]

set_option maxRecDepth 20000 in
theorem escaped_written : letI := noMarks
    (JSONEncoder.new.encode (fun _ => true) escapedBOM).writes = [escapedText.toList] ∧
    (((JSONEncoder.new.setPretty true).setEscapeHTML false).encode (fun _ => true) escapedBOM).writes =
      [prettyText.toList] := ⟨rfl, rfl⟩

set_option maxRecDepth 20000 in
/-- Both texts are written, and decoded again. -/
example : decodeText escapedText.toList {} = some escapedBOM ∧ decodeText prettyText.toList {} = some escapedBOM ∧
    escapedDoc.depth ≤ maxNestingDepth ∧ (withoutXML escapedBOM).Plain := by
  let _ := noMarks
  have hj : encodeJSON escapedBOM = .ok escapedDoc := rfl
  have hd : decodeJSON escapedDoc {} = some escapedBOM := rfl
  have hdepth : escapedDoc.depth ≤ maxNestingDepth := by decide
  have h1 := escaped_written.1
  have h2 := escaped_written.2
  refine ⟨?_, ?_, hdepth, (json_round_trip escapedBOM escapedDoc hj hdepth).1 hd⟩
  · rw [decodeText_written (by rw [h1]; exact .head _) hj, hd]
  · rw [decodeText_written (by rw [h2]; exact .head _) hj, hd]

/-- Texts that are not JSON. -/
example : (∀ j, ¬ Text j "{\"version\": 01}".toList) ∧ (∀ j, ¬ Text j "{\"a\": 1,}".toList) ∧
    (∀ j, ¬ Text j "{} {}".toList) := by
  have no : ∀ t, (parse t).isNone = true → ∀ j, ¬ Text j t := by
    intro t h j hj
    rw [parse_iff.2 hj] at h
    cases h
  exact ⟨no _ (by decide +kernel), no _ (by decide +kernel), no _ (by decide +kernel)⟩

end Examples

end Verif.Props
