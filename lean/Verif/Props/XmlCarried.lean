import Verif.Xml.CarryLaws
import Verif.Xml.ValidCheck
import Verif.Props.DecodeInto
import Verif.Props.XmlRead

/-! # C72: what is read from an XML document of the form of a schema is written again -/

namespace Verif.Props

set_option linter.unusedSectionVars false

open Xml (trim textOf sanitize)

variable [XFloatIO]

/-- A field that is not read does not matter for the others. -/
theorem dec_skip {α β : Type} {z : α} {F : XFields β} {x : Xml} {a : α} {b : β} {r : α × β}
    (h : (XFields.skip z F).dec x (a, b) = some r) (a' : α) : (XFields.skip z F).dec x (a', b) = some (a', r.2) := by
  have attrs : ∀ (as : List (String × String)) (b : β) (a : α),
      (XFields.skip z F).decAttrs as (a, b) = (F.decAttrs as b).map (a, ·) := by
    intro as
    induction as with
    | nil => intro b a; rfl
    | cons kv as ih =>
      intro b a
      simp only [XFields.decAttrs, XFields.setAttr]
      cases F.setAttr kv b with
      | none => rfl
      | some b' => exact ih b' a
  have kids : ∀ (ks : List Xml) (b : β) (a : α),
      XField.decAll (XFields.skip z F).setKid ks (a, b) = (XField.decAll F.setKid ks b).map (a, ·) := by
    intro ks
    induction ks with
    | nil => intro b a; rfl
    | cons k ks ih =>
      intro b a
      simp only [XField.decAll, XFields.setKid]
      cases F.setKid k b with
      | none => rfl
      | some b' => exact ih b' a
  simp only [XFields.dec, attrs] at h ⊢
  cases e : F.decAttrs x.attrs b with
  | none => rw [e] at h; cases h
  | some b₁ =>
    rw [e] at h
    simp only [Option.map_some, kids] at h ⊢
    cases e' : XField.decAll F.setKid x.kids b₁ with
    | none => rw [e'] at h; cases h
    | some b₂ =>
      rw [e'] at h
      simp only [Option.map_some, XFields.setText] at h ⊢
      cases h
      rfl

/-- C72: what a document of the form that the XML schema of some version declares says is also said by the document that
`Encode` writes for the BOM that `Decode` made of it, apart from what there is no place for in the Go types
(`XPlace.unread`, `XPlace.unreadAttrs`, `XPlace.single`), and the written document says nothing else. -/
theorem decodeXML_encodeXML_carried (v : Int) (order : List (Int × String)) (doc doc' : XmlDoc) (b : BOM) (hv : doc.Valid v)
    (hd : doc.root.Distinct) (h : decodeXML order doc {} = some b) (h' : encodeXML b = some doc') :
    XCarried .bom doc.root doc'.root := by
  obtain ⟨r, w, hr, rfl⟩ := decodeXML_dec h
  have hz : X.bom.dec doc.root X.bom.zero = some (BOM.ofP ({}, r.2)) :=
    Option.map_eq_some_iff.2 ⟨({}, r.2), dec_skip hr {}, rfl⟩
  unfold encodeXML at h'
  split at h'
  · rename_i root he
    cases h'
    exact ((xcar_bom (doc.root.depth + 1)).car v "bom" doc.root (BOM.ofP ({}, r.2)) (some root) (Nat.lt_succ_self _) hv.2.1
      hv.2.2 hd hz he).1 root rfl
  · cases h'

/-- C72 for texts: if the parser of `encoding/xml` reads the text as that document, which is not nested too deep for it. -/
theorem decodeXMLText_encodeXML_carried [XmlIO] [XmlText.XmlLang] (v : Int) (order : List (Int × String)) (t : List Char)
    (doc doc' : XmlDoc) (b : BOM) (ht : XmlText.parse t = some doc) (hv : doc.Valid v) (hd : doc.root.Distinct)
    (h : decodeXMLText order t {} = some b) (h' : encodeXML b = some doc') : XCarried .bom doc.root doc'.root := by
  simp only [decodeXMLText, ht] at h
  split at h
  · cases h
  · exact decodeXML_encodeXML_carried v order doc doc' b hv hd h h'

/-! ## What that means for the texts in a document -/

omit [XFloatIO] in
theorem carries_unique {p q q' : XPlace} {m : String} (h : (m, q) ∈ p.carries) (h' : (m, q') ∈ p.carries) : q = q' := by
  by_cases hd : p = .dependency
  · subst hd; simp [XPlace.carries] at h h'; rcases h with ⟨_, rfl⟩ | ⟨_, rfl⟩ <;> rcases h' with ⟨_, rfl⟩ | ⟨_, rfl⟩ <;> rfl
  by_cases hc : p = .dataGovernanceCustodians
  · subst hc; simp [XPlace.carries] at h h'; rw [h.2, h'.2]
  by_cases hs : p = .dataGovernanceStewards
  · subst hs; simp [XPlace.carries] at h h'; rw [h.2, h'.2]
  by_cases ho : p = .dataGovernanceOwners
  · subst ho; simp [XPlace.carries] at h h'; rw [h.2, h'.2]
  have : p.carries = p.content.els := by
    unfold XPlace.carries
    split <;> first | rfl | contradiction
  rw [this] at h h'
  exact Option.some.inj ((child_of_mem h).symm.trans (child_of_mem h'))

/-- An element that says something is not left out. -/
theorem said_not_blank {p : XPlace} {x : Xml} {path : List String} {a : Option String} {s : String} (h : XSaid p x path a s)
    (he : p = .licenseExpression → textOf x.kids ≠ "")
    (hd : p = .licenseExpressionDetailed → ∃ s, ("expression", s) ∈ x.attrs ∧ s ≠ "") : ¬ XBlank p x := by
  induction h with
  | attr h hu hs hn =>
    intro hb
    cases hb with
    | mk ha _ _ => exact hn (ha _ h hu)
    | expression ht => exact he rfl ht
    | detailed ha => obtain ⟨s', hs', hne⟩ := hd rfl; exact hne (ha _ hs' rfl)
  | text hm ho hn =>
    intro hb
    cases hb with
    | mk _ ht _ => exact hn (ht hm)
    | expression ht => exact he rfl ht
    | detailed ha => obtain ⟨s', hs', hne⟩ := hd rfl; exact hne (ha _ hs' rfl)
  | inside hk hu hm hq hs he' hd' h ih =>
    intro hb
    cases hb with
    | mk _ _ hk' => exact ih he' hd' (hk' _ _ _ _ hk (fun h => hu (.inl h)) hq)
    | expression ht => exact he rfl ht
    | detailed ha => obtain ⟨s', hs', hne⟩ := hd rfl; exact hne (ha _ hs' rfl)

/-- Among elements one after the other there is one for each that is not left out. -/
theorem aligned_find {p : XPlace} {m : String} (hs : p.scalarElems.lookup m = none) {x : Xml} : ∀ {xs ys : List Xml},
    XAligned p m xs ys → x ∈ xs → (∀ q, (m, q) ∈ p.carries → ¬ XBlank q x) →
      ∃ y ∈ ys, ∃ q, (m, q) ∈ p.carries ∧ XCarried q x y
  | xs, ys, h, hx, hb => by
    cases h with
    | nil => cases hx
    | both hq _ hc ht =>
      rcases List.mem_cons.1 hx with rfl | hx
      · exact ⟨_, by simp, _, hq, hc⟩
      · obtain ⟨y, hy, r⟩ := aligned_find hs ht hx hb
        exact ⟨y, by simp [hy], r⟩
    | scalar hsc => rw [hs] at hsc; cases hsc
    | drop hq hbl ht =>
      rcases List.mem_cons.1 hx with rfl | hx
      · exact absurd hbl (hb _ hq)
      · exact aligned_find hs ht hx hb
    | zero hz ht =>
      rcases hz with ⟨rfl, rfl, _⟩ | ⟨rfl, rfl, _⟩
      · exact absurd hs (by decide)
      · exact absurd hs (by decide)
    | add _ ht =>
      obtain ⟨y, hy, r⟩ := aligned_find hs ht hx hb
      exact ⟨y, by simp [hy], r⟩
termination_by xs ys => xs.length + ys.length

/-- What is said is found at the same place of the other document. -/
theorem carried_said {p : XPlace} {x : Xml} {path : List String} {a : Option String} {s : String} (h : XSaid p x path a s) :
    ∀ {x' : Xml}, XCarried p x x' → x'.At path a (sanitize s) := by
  induction h with
  | attr h hu hs hn =>
    intro x' hc
    cases hc with
    | mk ha _ _ _ =>
      obtain ⟨s', hs', hsame⟩ := ha.1 _ h hu hn
      simp only [hs, XScalar.Same] at hsame
      subst hsame
      exact .attr hs'
  | text hm ho hn =>
    intro x' hc
    cases hc with
    | mk _ ht _ _ =>
      rw [TextCarried, if_neg ho, if_pos hm] at ht
      rw [← ht]
      exact .text
  | @inside p q n m s as bs ks ls path a hk hu hm hq hs he hd h ih =>
    intro x' hc
    cases hc with
    | mk _ _ hal _ =>
      have hself : (Xml.elem m bs ls).isElem m = true := by simp [Xml.isElem]
      obtain ⟨y, hy, q', hq', hcy⟩ := aligned_find hs (hal m hu hm) (List.mem_filter.2 ⟨hk, hself⟩) (fun q' hq' => by
        rw [carries_unique hq' hq]; exact said_not_blank h he hd)
      rw [carries_unique hq' hq] at hcy
      obtain ⟨hyk, hym⟩ := List.mem_filter.1 hy
      cases y with
      | text s => cases hym
      | elem m' bs' ls' =>
        simp only [Xml.isElem, decide_eq_true_eq] at hym
        subst hym
        exact .inside hyk (ih hcy)

/-- C72: every text that is in a document of that form, in an attribute or as the text of an element, at the end of a path
of elements that the Go types have a place for, is at the end of the same path in the document that is written. -/
theorem decodeXML_encodeXML_said (v : Int) (order : List (Int × String)) (doc doc' : XmlDoc) (b : BOM) (hv : doc.Valid v)
    (hd : doc.root.Distinct) (h : decodeXML order doc {} = some b) (h' : encodeXML b = some doc') (path : List String)
    (a : Option String) (s : String) (hs : XSaid .bom doc.root path a s) : doc'.root.At path a (sanitize s) :=
  carried_said hs (decodeXML_encodeXML_carried v order doc doc' b hv hd h h')

/-! ## Cases -/

omit [XFloatIO] in
/-- Whether no element has two attributes of the same name. -/
def distinctCheck : Nat → Xml → Bool
  | 0, _ => false
  | _ + 1, .text _ => true
  | n + 1, .elem _ as ks => decide (as.map (·.1)).Nodup && ks.all (distinctCheck n)

omit [XFloatIO] in
theorem distinct_of_check : ∀ (n : Nat) (x : Xml), distinctCheck n x = true → x.Distinct
  | 0, _, h => by cases h
  | _ + 1, .text s, _ => .text s
  | n + 1, .elem _ as ks, h => by
    simp only [distinctCheck, Bool.and_eq_true, decide_eq_true_eq, List.all_eq_true] at h
    exact .elem h.1 fun k hk => distinct_of_check n k (h.2 k hk)

/-- The elements at the end of a path. -/
def elemsAt : List String → Xml → List Xml
  | [], x => [x]
  | m :: path, x => (x.kids.filter (Xml.isElem m)).flatMap (elemsAt path)

/-- A document with some things that there is place for and some that there is not. -/
def xmlEvidence : XmlDoc where
  space := "http://cyclonedx.org/schema/bom/1.6"
  root := .elem "bom" [("xmlns", "http://cyclonedx.org/schema/bom/1.6"), ("version", "1")] [
    .elem "components" [] [.elem "component" [("type", "library"), ("bom-ref", "acme")] [
      .elem "name" [] [.text "acme"],
      .elem "licenses" [] [.elem "expression" [("bom-ref", "licenses")] [.text "MIT OR Apache-2.0"]],
      .elem "swid" [("tagId", "tag"), ("name", "acme")] [.elem "url" [] [.text "https://example.com"]],
      .elem "evidence" [] [
        .elem "occurrences" [] [.elem "occurrence" [("bom-ref", "here")] [.elem "location" [] [.text "/lib/acme"],
          .elem "line" [] [.text "7"], .elem "symbol" [] [.text "main"]]],
        .elem "copyright" [] [.elem "text" [] [.text "Copyright Acme"]]]]],
    .elem "dependencies" [] [.elem "dependency" [("ref", "acme")] [.elem "dependency" [("ref", "b")] [.elem "dependency" [("ref", "c")] []]]],
    .elem "declarations" [] [.elem "claims" [] [.elem "claim" [("bom-ref", "claim")] [.elem "target" [] [.text "acme"],
      .elem "predicate" [] [.text "is safe"]]]]]

theorem xmlEvidence_valid : xmlEvidence.Valid SpecVersion1_6 := ⟨rfl, rfl, xvalid_of_check 7 _ _ (by decide +kernel)⟩

theorem xmlEvidence_distinct : xmlEvidence.root.Distinct := distinct_of_check 9 _ (by decide +kernel)

/-- What is said in it: the copyright and the location, but not the line. -/
theorem xmlEvidence_said : XSaid .bom xmlEvidence.root
    ["components", "component", "evidence", "occurrences", "occurrence", "location"] none "/lib/acme" := by
  have step : ∀ {p q : XPlace} {m : String} {ks : List Xml}, (m, q) ∈ p.carries → m ∉ p.unread → m ∉ p.single → p ≠ .certificateExtension →
      p ≠ .licenseChoice → ¬ p.Unread ks m ∧ ¬ p.Merged ks m := by
    intro p q m ks _ h₁ h₂ h₃ h₄
    exact ⟨fun h => h.elim h₁ fun h => h₃ h.1, fun h => h.elim (fun h => h₂ h.1) fun h => h₄ h.1⟩
  have go : ∀ {p q : XPlace} {n m s : String} {as bs : List (String × String)} {ks ls : List Xml} {path : List String},
      Xml.elem m bs ls ∈ ks → (m, q) ∈ p.carries → m ∉ p.unread → m ∉ p.single → p ≠ .certificateExtension → p ≠ .licenseChoice →
      p.scalarElems.lookup m = none → q ≠ .licenseExpression → q ≠ .licenseExpressionDetailed → XSaid q (.elem m bs ls) path none s →
      XSaid p (.elem n as ks) (m :: path) none s := by
    intro p q n m s as bs ks ls path hk hq h₁ h₂ h₃ h₄ h₅ h₆ h₇ h
    exact .inside hk (step hq h₁ h₂ h₃ h₄).1 (step hq h₁ h₂ h₃ h₄).2 hq h₅ (fun h => absurd h h₆) (fun h => absurd h h₇) h
  refine go (q := .components) (List.mem_cons_self) (by decide) (by decide) (by decide) (by decide) (by decide) (by decide)
    (by decide) (by decide) ?_
  refine go (q := .component) (List.mem_cons_self) (by decide) (by decide) (by decide) (by decide) (by decide) (by decide)
    (by decide) (by decide) ?_
  refine go (q := .componentEvidence) (by simp only [List.mem_cons]; exact .inr (.inr (.inr (.inl rfl)))) (by decide) (by decide)
    (by decide) (by decide) (by decide) (by decide) (by decide) (by decide) ?_
  refine go (q := .occurrences) (List.mem_cons_self) (by decide) (by decide) (by decide) (by decide) (by decide) (by decide)
    (by decide) (by decide) ?_
  refine go (q := .occurrence) (List.mem_cons_self) (by decide) (by decide) (by decide) (by decide) (by decide) (by decide)
    (by decide) (by decide) ?_
  refine go (q := .text) (List.mem_cons_self) (by decide) (by decide) (by decide) (by decide) (by decide) (by decide)
    (by decide) (by decide) ?_
  exact .text rfl (by decide) (by decide)

/-- What is read from it. -/
def xmlEvidenceBOM : BOM where
  xmlName := ⟨"http://cyclonedx.org/schema/bom/1.6", "bom"⟩
  xmlns := "http://cyclonedx.org/schema/bom/1.6"
  specVersion := 7
  version := 1
  components := .list [{
    bomRef := "acme", type := "library", name := "acme",
    licenses := .list [{ expression := "MIT OR Apache-2.0", bomRef := "licenses" }],
    swid := some { tagID := "tag", name := "acme" },
    evidence := some {
      occurrences := .list [{ bomRef := "here", location := "/lib/acme" }],
      copyright := .list [{ text := "Copyright Acme" }] } }]
  dependencies := .list [{ ref := "acme", dependencies := .list ["b"] }]
  declarations := some { claims := .list [{ bomRef := "claim", predicate := "is safe" }] }

set_option maxRecDepth 10000 in
theorem xmlEvidence_read : decodeXML xmlNamespaces xmlEvidence {} = some xmlEvidenceBOM := rfl

/-- What is written for that. -/
def xmlEvidenceWritten : XmlDoc where
  space := "http://cyclonedx.org/schema/bom/1.6"
  root := .elem "bom" [("xmlns", "http://cyclonedx.org/schema/bom/1.6"), ("version", "1")] [
    .elem "components" [] [.elem "component" [("bom-ref", "acme"), ("type", "library")] [
      .elem "name" [] [.text "acme"],
      .elem "licenses" [] [.elem "expression" [("bom-ref", "licenses")] [.text "MIT OR Apache-2.0"]],
      .elem "swid" [("tagId", "tag"), ("name", "acme")] [],
      .elem "evidence" [] [
        .elem "occurrences" [] [.elem "occurrence" [("bom-ref", "here")] [.elem "location" [] [.text "/lib/acme"]]],
        .elem "copyright" [] [.elem "text" [] [.text "Copyright Acme"]]]]],
    .elem "dependencies" [] [.elem "dependency" [("ref", "acme")] [.elem "dependency" [("ref", "b")] []]],
    .elem "declarations" [] [.elem "claims" [] [.elem "claim" [("bom-ref", "claim")] [
      .elem "predicate" [] [.text "is safe"]]]]]

set_option maxRecDepth 10000 in
theorem xmlEvidence_written : encodeXML xmlEvidenceBOM = some xmlEvidenceWritten := rfl

/-- The theorems apply to it: the document that is written has the location. -/
example : XCarried .bom xmlEvidence.root xmlEvidenceWritten.root ∧ xmlEvidenceWritten.root.At
    ["components", "component", "evidence", "occurrences", "occurrence", "location"] none (sanitize "/lib/acme") :=
  ⟨decodeXML_encodeXML_carried _ _ _ _ _ xmlEvidence_valid xmlEvidence_distinct xmlEvidence_read xmlEvidence_written,
    decodeXML_encodeXML_said _ _ _ _ _ xmlEvidence_valid xmlEvidence_distinct xmlEvidence_read xmlEvidence_written _ _ _
      xmlEvidence_said⟩

/-- C72 is only a part of what one would want: the line and the symbol of an occurrence, the URL of a SWID tag, the target
of a claim and dependencies of dependencies are lost although the schema declares them. -/
theorem decodeXML_encodeXML_loses : xmlEvidence.Valid SpecVersion1_6 ∧
    decodeXML xmlNamespaces xmlEvidence {} = some xmlEvidenceBOM ∧ encodeXML xmlEvidenceBOM = some xmlEvidenceWritten ∧
    ∀ path ∈ [["components", "component", "evidence", "occurrences", "occurrence", "line"],
        ["components", "component", "evidence", "occurrences", "occurrence", "symbol"],
        ["components", "component", "swid", "url"], ["declarations", "claims", "claim", "target"],
        ["dependencies", "dependency", "dependency", "dependency"]],
      (elemsAt path xmlEvidence.root).length = 1 ∧
        (elemsAt path xmlEvidenceWritten.root).all fun y => y.kids.isEmpty && y.attrs.all fun kv => kv.2 == "" :=
  ⟨xmlEvidence_valid, xmlEvidence_read, xmlEvidence_written, by decide +kernel⟩

end Verif.Props
