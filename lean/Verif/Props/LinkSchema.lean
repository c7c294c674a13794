import Verif.Spec.LinkSchema
import Verif.Props.Link

/-!
# C86: BOM-Links and the patterns of the schemas

What `NewBOMLink`, `String`, `IsBOMLink` and `ParseBOMLink` (link.go) have to do with the patterns the
schemas declare for serial numbers and for links.
-/

namespace Verif.Props

open Verif.Link Verif.Spec

theorem documentLink_lang (s : Bytes) : documentLinkRe.Lang s ↔
    ∃ u v, IsUUID u ∧ IsVersion v ∧ s = utf8 "urn:cdx:" ++ u ++ utf8 "/" ++ v := by
  have hv := fun s => version_lang s
  simp only [versionRe, Re.Lang.eq_3] at hv
  simp only [documentLinkRe, Re.Lang.eq_3, Re.Lang.eq_1, uuid_lang, hv]
  constructor
  · rintro ⟨_, _, rfl, rfl, u, _, rfl, hu, _, v, rfl, rfl, hv⟩
    exact ⟨u, v, hu, hv, by simp [List.append_assoc]⟩
  · rintro ⟨u, v, hu, hv, rfl⟩
    exact ⟨_, _, by simp only [List.append_assoc], rfl, u, _, rfl, hu, _, v, rfl, rfl, hv⟩

theorem documentLink_no_hash {s : Bytes} (h : documentLinkRe.Lang s) : (35 : UInt8) ∉ s := by
  obtain ⟨u, v, hu, hv, rfl⟩ := (documentLink_lang s).1 h
  have h1 : (35 : UInt8) ∉ utf8 "urn:cdx:" := by decide
  have h2 : (35 : UInt8) ∉ utf8 "/" := by decide
  have h3 : (35 : UInt8) ∉ v := by
    obtain ⟨_, _, _, _, hall⟩ := hv
    intro hm
    have := hall 35 hm
    revert this; decide
  simp only [List.mem_append, h1, h2, h3, uuid_no_hash hu, or_self, not_false_eq_true]

theorem hash_bytes : utf8 "#" = [35] := by decide

/-- Texts without `#` before the first `#` are determined. -/
theorem split_hash {p q r t : Bytes} (hp : (35 : UInt8) ∉ p) (hq : (35 : UInt8) ∉ q)
    (h : p ++ 35 :: r = q ++ 35 :: t) : p = q ∧ r = t := by
  induction p generalizing q with
  | nil =>
    cases q with
    | nil => simpa using h
    | cons b q =>
      simp only [List.nil_append, List.cons_append, List.cons.injEq] at h
      exact absurd (by simp [h.1]) hq
  | cons a p ih =>
    simp only [List.mem_cons, not_or] at hp
    cases q with
    | nil =>
      simp only [List.nil_append, List.cons_append, List.cons.injEq] at h
      exact absurd h.1.symm hp.1
    | cons b q =>
      simp only [List.cons_append, List.cons.injEq] at h
      simp only [List.mem_cons, not_or] at hq
      obtain ⟨rfl, rfl⟩ := ih hp.2 hq.2 h.2
      exact ⟨by rw [h.1], rfl⟩

/-- The characters a reference may have in a link are all ASCII and none of them ends a line. -/
theorem refBytes_noLineTerminator {r : Bytes} (h : ∀ b ∈ r, isRefByte b = true) :
    NoLineTerminator r := by
  have hne : ∀ b : UInt8, isRefByte b = false → b ∉ r := fun b hb hm => by
    rw [h b hm] at hb; cases hb
  have hE2 : (0xE2 : UInt8) ∉ r := hne _ (by decide)
  exact ⟨hne _ (by decide), hne _ (by decide), fun hi => hE2 (hi.subset (by simp)),
    fun hi => hE2 (hi.subset (by simp))⟩

/-- No text is a link to a document and a link to an element, and a link to an element has one
reference: the two patterns of the schemas tell the two kinds of link apart. -/
theorem linkKinds_disjoint {s r : Bytes} (h : ElementLink s r) :
    ¬ documentLinkRe.Lang s ∧ ∀ r', ElementLink s r' → r' = r := by
  obtain ⟨p, hp, hr, -, rfl⟩ := h
  rw [hash_bytes]
  refine ⟨fun hd => documentLink_no_hash hd (by simp), ?_⟩
  rintro r' ⟨q, hq, -, -, he⟩
  rw [hash_bytes] at he
  simp only [List.append_assoc, List.cons_append, List.nil_append] at he
  exact (split_hash (documentLink_no_hash hp) (documentLink_no_hash hq) he).2.symm

/-- **C86** (writing): a link made by `NewBOMLink` or `ParseBOMLink` prints as a link to a document in
the sense of the schemas exactly when it has no reference, and as a link to an element exactly when it
has one; what stands after the `#` is the reference, escaped. -/
theorem string_schema (l : BOMLink) (h : WellFormedLink l) :
    (documentLinkRe.Lang l.string ↔ l.reference = []) ∧
    ((∃ r, ElementLink l.string r) ↔ l.reference ≠ []) ∧
    (∀ r, ElementLink l.string r → WellEscaped r ∧ queryUnescape r = some l.reference) := by
  obtain ⟨u, hu, hs⟩ := (serialNumberMatch_iff _).1 ((serialRe_iff _).1 h.serial)
  have hd : documentLinkRe.Lang (utf8 "urn:cdx:" ++ u ++ utf8 "/" ++ formatInt l.version) :=
    (documentLink_lang _).2 ⟨u, _, hu, formatInt_isVersion h.version, rfl⟩
  have he : l.string = utf8 "urn:cdx:" ++ u ++ utf8 "/" ++ formatInt l.version ++
      (if queryEscape l.reference = [] then [] else 35 :: queryEscape l.reference) := by
    rw [string_eq, hs, trimURN_append]
  by_cases hr : l.reference = []
  · have hd' : documentLinkRe.Lang l.string := by
      rw [he, if_pos (by simp [hr, queryEscape]), List.append_nil]; exact hd
    refine ⟨⟨fun _ => hr, fun _ => hd'⟩, ⟨?_, fun hne => absurd hr hne⟩, ?_⟩
    · rintro ⟨r, hel⟩; exact absurd hd' (linkKinds_disjoint hel).1
    · intro r hel; exact absurd hd' (linkKinds_disjoint hel).1
  · have hq : queryEscape l.reference ≠ [] := fun hq => hr (queryEscape_eq_nil hq)
    have hel : ElementLink l.string (queryEscape l.reference) :=
      ⟨_, hd, hq, refBytes_noLineTerminator (queryEscape_refBytes _), by
        rw [he, if_neg hq, hash_bytes]; simp⟩
    refine ⟨⟨fun hdoc => absurd hdoc (linkKinds_disjoint hel).1, fun h0 => absurd h0 hr⟩,
      ⟨fun _ => hr, fun _ => ⟨_, hel⟩⟩, ?_⟩
    intro r hr'
    obtain rfl := (linkKinds_disjoint hel).2 r hr'
    exact ⟨(wellEscaped_iff _).2 (by rw [unescape_escape]; rfl), unescape_escape _⟩

/-- **C86** for the API: what `NewBOMLink` returns for no element prints as a link to a document, and
for an element as a link to an element. -/
theorem newBOMLink_string_schema {serial : Bytes} {version : Int} {elem : Elem} {l : BOMLink}
    (hv : InInt64 version) (h : newBOMLink serial version elem = .ok l) :
    (elem = .nil → documentLinkRe.Lang l.string) ∧
    (elem ≠ .nil → ∃ r, ElementLink l.string r) := by
  obtain ⟨hdoc, hel, -⟩ := string_schema l (newBOMLink_wellFormed hv h)
  obtain ⟨-, -, ref, hcase, -, -, hr⟩ := (newBOMLink_ok_iff _ _ _ _).1 h
  constructor
  · rintro rfl
    refine hdoc.2 (hr.trans ?_)
    rcases hcase with ⟨-, h0⟩ | ⟨hl, -⟩
    · exact h0
    · cases hl
  · intro hne
    refine hel.2 ?_
    rcases hcase with ⟨h0, -⟩ | ⟨-, h0⟩
    · exact absurd h0 hne
    · rw [hr]; exact h0

/-- **C86** (recognition): `IsBOMLink` accepts exactly the links to documents of the schemas and those
links to elements whose reference is made of the characters a URN allows there. -/
theorem isBOMLink_schema_iff (s : Bytes) :
    isBOMLink s = true ↔ documentLinkRe.Lang s ∨ ∃ r, ElementLink s r ∧ refRe.Lang r := by
  rw [isBOMLink, Option.isSome_iff_exists]
  constructor
  · rintro ⟨⟨u, v, ref⟩, hm⟩
    obtain ⟨hu, hv, hr, hs⟩ := (findSubmatch_iff _ _).1 hm
    dsimp only at hu hv hr hs
    have hd : documentLinkRe.Lang (utf8 "urn:cdx:" ++ u ++ utf8 "/" ++ v) :=
      (documentLink_lang _).2 ⟨u, v, hu, hv, rfl⟩
    by_cases h0 : ref = []
    · left; rw [hs, if_pos h0, List.append_nil]; exact hd
    · right
      refine ⟨ref, ⟨_, hd, h0, refBytes_noLineTerminator hr, ?_⟩, (ref_lang _).2 ⟨h0, hr⟩⟩
      rw [hs, if_neg h0, hash_bytes]; simp
  · rintro (hd | ⟨r, ⟨p, hp, h0, -, rfl⟩, hr⟩)
    · obtain ⟨u, v, hu, hv, rfl⟩ := (documentLink_lang s).1 hd
      exact ⟨⟨u, v, []⟩, (findSubmatch_iff _ _).2 ⟨hu, hv, by simp, by simp⟩⟩
    · obtain ⟨u, v, hu, hv, rfl⟩ := (documentLink_lang p).1 hp
      refine ⟨⟨u, v, r⟩, (findSubmatch_iff _ _).2 ⟨hu, hv, ((ref_lang _).1 hr).2, ?_⟩⟩
      rw [if_neg h0, hash_bytes]; simp

/-- **C86**, the part that holds of "`IsBOMLink` agrees with the schemas": whatever it accepts is a link
of the schemas, of exactly one kind, and every link to a document is accepted. What is missing is that
every link to an element is accepted: `isBOMLink_refuses_schema_link` is one that is not. -/
theorem isBOMLink_schema_partial (s : Bytes) :
    (isBOMLink s = true → documentLinkRe.Lang s ∨ ∃ r, ElementLink s r) ∧
    (documentLinkRe.Lang s → isBOMLink s = true) ∧
    (∀ r, ElementLink s r → (isBOMLink s = true ↔ refRe.Lang r)) := by
  rw [isBOMLink_schema_iff]
  refine ⟨?_, Or.inl, ?_⟩
  · rintro (h | ⟨r, h, -⟩)
    · exact Or.inl h
    · exact Or.inr ⟨r, h⟩
  · intro r hel
    constructor
    · rintro (hd | ⟨r', hel', hr⟩)
      · exact absurd hd (linkKinds_disjoint hel).1
      · rwa [← (linkKinds_disjoint hel).2 r' hel']
    · intro hr; exact Or.inr ⟨r, hel, hr⟩

/-- The document part of the links of the witnesses. -/
def exampleDocumentLink : Bytes := utf8 "urn:cdx:bd064d10-ba4c-4d8d-a5a2-9c8d5bd3a4ff/3"

theorem exampleDocumentLink_lang : documentLinkRe.Lang exampleDocumentLink := by
  have h : isBOMLink exampleDocumentLink = true := by decide +kernel
  rcases (isBOMLink_schema_iff _).1 h with h | ⟨r, ⟨p, -, -, -, he⟩, -⟩
  · exact h
  · have hm : (35 : UInt8) ∈ exampleDocumentLink := by
      rw [he, hash_bytes]; simp
    exact absurd hm (by decide +kernel)

/-- A link the schemas allow that `IsBOMLink` and `ParseBOMLink` refuse: the reference has a character
outside those of a URN. The references of the schemas' own examples for `bom-ref` do not need one, but
nothing keeps a document written by another tool from having it: here the `#` of a purl. -/
theorem isBOMLink_refuses_schema_link :
    ∃ s r, ElementLink s r ∧ isBOMLink s = false ∧ parseBOMLink s = .error "invalid bom link" := by
  refine ⟨exampleDocumentLink ++ utf8 "#" ++ utf8 "pkg:npm/a@1#b", utf8 "pkg:npm/a@1#b",
    ⟨_, exampleDocumentLink_lang, by decide, ⟨by decide, by decide, ?_, ?_⟩, rfl⟩,
    by decide +kernel, by decide +kernel⟩
  · intro hi
    exact absurd (hi.subset (List.mem_cons_self ..)) (by decide)
  · intro hi
    exact absurd (hi.subset (List.mem_cons_self ..)) (by decide)

/-- **C86** (reading): what `ParseBOMLink` accepts is a link of the schemas, to a document exactly when
the link it returns has no reference, and a link to an element exactly when it has one. -/
theorem parseBOMLink_schema {s : Bytes} {l : BOMLink} (h : parseBOMLink s = .ok l) :
    (documentLinkRe.Lang s ↔ l.reference = []) ∧
    ((∃ r, ElementLink s r) ↔ l.reference ≠ []) ∧
    (∀ r, ElementLink s r → queryUnescape r = some l.reference) := by
  unfold parseBOMLink at h
  split at h
  · cases h
  · next m hm =>
    split at h
    · cases h
    · split at h
      · cases h
      · next ref hq =>
        cases h
        obtain ⟨hu, hv, hr, hs⟩ := (findSubmatch_iff _ _).1 hm
        have hd : documentLinkRe.Lang (utf8 "urn:cdx:" ++ m.serial ++ utf8 "/" ++ m.version) :=
          (documentLink_lang _).2 ⟨_, _, hu, hv, rfl⟩
        dsimp only
        by_cases h0 : m.ref = []
        · have hd' : documentLinkRe.Lang s := by rw [hs, if_pos h0, List.append_nil]; exact hd
          have href : ref = [] := by
            rw [h0, queryUnescape] at hq; exact (Option.some.inj hq).symm
          refine ⟨⟨fun _ => href, fun _ => hd'⟩, ⟨?_, fun hne => absurd href hne⟩, ?_⟩
          · rintro ⟨r, hel⟩; exact absurd hd' (linkKinds_disjoint hel).1
          · intro r hel; exact absurd hd' (linkKinds_disjoint hel).1
        · have href : ref ≠ [] := queryUnescape_ne_nil hq h0
          have hel : ElementLink s m.ref := ⟨_, hd, h0, refBytes_noLineTerminator hr, by
            rw [hs, if_neg h0, hash_bytes]; simp⟩
          refine ⟨⟨fun hdoc => absurd hdoc (linkKinds_disjoint hel).1, fun h => absurd h href⟩,
            ⟨fun _ => href, fun _ => ⟨_, hel⟩⟩, ?_⟩
          intro r hr'
          obtain rfl := (linkKinds_disjoint hel).2 r hr'
          exact hq

/-- **C86** (serial numbers): `NewBOMLink` without an element accepts, of the serial numbers, exactly
those of the JSON schemas. -/
theorem newBOMLink_serial_json (s : Bytes) (v : Int) (hv : 1 ≤ v) :
    (∃ l, newBOMLink s v .nil = .ok l) ↔ jsonSerialRe.Lang s := by
  constructor
  · rintro ⟨l, h⟩; exact ((newBOMLink_ok_iff _ _ _ _).1 h).1
  · intro h
    exact ⟨⟨s, v, []⟩, (newBOMLink_ok_iff _ _ _ _).2
      ⟨h, hv, [], Or.inl ⟨rfl, rfl⟩, rfl, rfl, rfl⟩⟩

/-- A UUID in braces is no serial number of the JSON schemas. -/
theorem braced_not_json {s : Bytes} (h : (Re.lit (utf8 "{") ⬝ uuidRe ⬝ .lit (utf8 "}")).Lang s) :
    ¬ jsonSerialRe.Lang s := by
  simp only [jsonSerialRe, Re.Lang.eq_3, Re.Lang.eq_1] at h ⊢
  obtain ⟨_, _, rfl, rfl, -⟩ := h
  rintro ⟨_, y, he, rfl, -⟩
  have e1 : utf8 "{" = [123] := by decide
  have e2 : utf8 "urn:uuid:" = 117 :: utf8 "rn:uuid:" := by decide
  rw [e1, e2] at he
  simp at he

/-- **C86** (serial numbers in XML), the part that holds: `NewBOMLink` accepts only serial numbers of the
XML schemas, and of these all but the UUIDs in braces. Missing: those (`newBOMLink_refuses_braces`). -/
theorem newBOMLink_serial_xml_partial (s : Bytes) (v : Int) (hv : 1 ≤ v) :
    ((∃ l, newBOMLink s v .nil = .ok l) → XsdSerial s) ∧
    (XsdSerial s → ((∃ l, newBOMLink s v .nil = .ok l) ↔
      ¬ (Re.lit (utf8 "{") ⬝ uuidRe ⬝ .lit (utf8 "}")).Lang s)) := by
  rw [newBOMLink_serial_json s v hv]
  refine ⟨Or.inl, fun hx => ⟨fun hj hb => braced_not_json hb hj, fun hb => ?_⟩⟩
  rcases hx with hx | hx
  · exact hx
  · exact absurd hx hb

/-- A serial number the XML schemas 1.1 to 1.7 allow, for which no link can be made. -/
theorem newBOMLink_refuses_braces :
    ∃ s, XsdSerial s ∧ ∀ v elem l, newBOMLink s v elem ≠ .ok l := by
  have hb : (Re.lit (utf8 "{") ⬝ uuidRe ⬝ .lit (utf8 "}")).Lang
      (utf8 "{" ++ (utf8 "bd064d10-ba4c-4d8d-a5a2-9c8d5bd3a4ff" ++ utf8 "}")) := by
    simp only [Re.Lang.eq_3, Re.Lang.eq_1]
    refine ⟨_, _, rfl, rfl, _, _, rfl, ?_, rfl⟩
    have := (serialRe_iff exampleSerial).2 (by decide +kernel)
    simp only [serialRe, Re.Lang.eq_3, Re.Lang.eq_1] at this
    obtain ⟨_, u, he, rfl, hu⟩ := this
    have e : exampleSerial = utf8 "urn:uuid:" ++ utf8 "bd064d10-ba4c-4d8d-a5a2-9c8d5bd3a4ff" := by
      decide +kernel
    rw [e] at he
    rw [List.append_cancel_left he]
    exact hu
  exact ⟨_, Or.inr hb, fun v elem l h =>
    braced_not_json hb ((newBOMLink_ok_iff _ _ _ _).1 h).1⟩

example : WellFormedLink ⟨exampleSerial, 3, utf8 "pkg:npm/a@1#b"⟩ ∧
    (BOMLink.mk exampleSerial 3 (utf8 "pkg:npm/a@1#b")).string =
      exampleDocumentLink ++ utf8 "#" ++ utf8 "pkg%3Anpm%2Fa%401%23b" :=
  ⟨⟨(serialRe_iff _).2 (by decide +kernel), by decide, by decide⟩, by decide +kernel⟩

example : ∃ l, parseBOMLink (exampleDocumentLink ++ utf8 "#a%23b") = .ok l ∧
    l.reference = utf8 "a#b" := ⟨⟨exampleSerial, 3, utf8 "a#b"⟩, by decide +kernel, rfl⟩

end Verif.Props
