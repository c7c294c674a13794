import Verif.Xml.SaysLaws
import Verif.Xml.PlainLaws
import Verif.Props.XmlCarried

/-! # C94: an XML document that is read and written again says nothing new -/

namespace Verif.Props

set_option linter.unusedSectionVars false

open Xml (trim textOf sanitize)

variable [XFloatIO]

/-- What is in the document, perhaps with white space around it, or is no text. -/
theorem xsay_rules (D : String → Prop) : Rules (fun s => D s ∨ s = "")
    (fun t => (∃ s, D s ∧ (t = sanitize s ∨ t = sanitize (trim s))) ∨ NoText t) := by
  refine ⟨.inr rfl, fun t => .inr, fun s hs => ?_, fun s hs => ?_⟩
  · rcases hs with hs | rfl
    · exact .inl ⟨s, hs, .inl rfl⟩
    · exact .inr (.inr (.inr (by rw [show sanitize "" = "" from by decide]; simp)))
  · rcases hs with hs | rfl
    · exact .inl ⟨s, hs, .inr rfl⟩
    · exact .inr (.inr (.inr (by rw [show sanitize (trim "") = "" from by decide]; simp)))

theorem decodeXML_keeps {P Q : String → Prop} {n : Nat} {I : BOM → Prop} (hI : SayX P Q n X.bom I)
    (hv : ∀ (b : BOM) (m : XMLName) (v : Int), I b → I { b with xmlName := m, specVersion := v })
    {order : List (Int × String)} {d : XmlDoc} {old b : BOM} (hn : d.root.depth < n) (hr : Heard P d.root) (ho : I old)
    (hd : decodeXML order d old = some b) : I b := by
  unfold decodeXML at hd
  split at hd
  · rw [Option.map_eq_some_iff] at hd
    obtain ⟨c, hc, rfl⟩ := hd
    have hi := hI.dec d.root _ c hn hr (hv old _ old.specVersion ho) hc
    unfold versionOfNamespace
    split
    · exact hv c c.xmlName _ hi
    · exact hi
  · cases hd

theorem encodeXML_wrote {P Q : String → Prop} {n : Nat} {I : BOM → Prop} (hI : SayX P Q n X.bom I) {b : BOM} {d : XmlDoc}
    (hb : I b) (he : encodeXML b = some d) : Heard Q d.root := by
  unfold encodeXML at he
  split at he
  · rename_i root hroot
    simp only [Option.some.injEq] at he
    subst he
    exact (hI.enc "bom" b root hb hroot).2
  · cases he

/-- C94: every attribute value and every element's character data in what `Encode` writes of what `Decode` has read from an
XML document is in that document, as an attribute value or as an element's character data, perhaps with white space around it
and up to characters that XML does not allow; or it is a truth value or a number, or empty. -/
theorem reencodeXML_says (order : List (Int × String)) (d d' : XmlDoc) (b : BOM) (hd : decodeXML order d {} = some b)
    (he : encodeXML b = some d') (t : String) (h : d'.root.Says t) :
    (∃ s, d.root.Says s ∧ (t = sanitize s ∨ t = sanitize (trim s))) ∨ NoText t := by
  obtain ⟨I, hI, hv⟩ := xsay_bom (d.root.depth + 1) (xsay_rules d.root.Says)
  exact encodeXML_wrote hI (decodeXML_keeps hI hv (Nat.lt_succ_self _) (fun _ => .inl) hI.zero hd) he t h

/-- C94, from a document read into a BOM that was read before: what is written then is in one of the two. -/
theorem reencodeXML_says_over (order order' : List (Int × String)) (d₀ d₁ d' : XmlDoc) (b₀ b : BOM)
    (h₀ : decodeXML order d₀ {} = some b₀) (hd : decodeXML order' d₁ b₀ = some b) (he : encodeXML b = some d') (t : String)
    (h : d'.root.Says t) :
    (∃ s, (d₀.root.Says s ∨ d₁.root.Says s) ∧ (t = sanitize s ∨ t = sanitize (trim s))) ∨ NoText t := by
  obtain ⟨I, hI, hv⟩ := xsay_bom (max d₀.root.depth d₁.root.depth + 1)
    (xsay_rules fun s => d₀.root.Says s ∨ d₁.root.Says s)
  have hb := decodeXML_keeps hI hv (by omega) (fun _ h => .inl (.inl h)) hI.zero h₀
  exact encodeXML_wrote hI (decodeXML_keeps hI hv (by omega) (fun _ h => .inl (.inr h)) hb hd) he t h

/-- C94, for a document in which there are only characters that XML allows, as in any that is well-formed. -/
theorem reencodeXML_says_clean (order : List (Int × String)) (d d' : XmlDoc) (b : BOM) (hx : ∀ s, d.root.Says s → XString s)
    (hd : decodeXML order d {} = some b) (he : encodeXML b = some d') (t : String) (h : d'.root.Says t) :
    d.root.Says t ∨ (∃ s, d.root.Says s ∧ t = trim s) ∨ NoText t := by
  rcases reencodeXML_says order d d' b hd he t h with ⟨s, hs, rfl | rfl⟩ | h
  · rw [(sanitize_eq s).2 (hx s hs)]
    exact .inl hs
  · refine .inr (.inl ⟨s, hs, (sanitize_eq _).2 fun c hc => hx s hs c ?_⟩)
    simp only [trim, Xml.trimChars, String.toList_ofList, List.mem_reverse] at hc
    exact (List.dropWhile_sublist _).subset (List.mem_reverse.1 ((List.dropWhile_sublist _).subset hc))
  · exact .inr (.inr h)

/-- The theorem applies to a document with a license expression, an occurrence and dependencies: the location is written,
and everything that is written is in the document. -/
example : xmlEvidenceWritten.root.Says "/lib/acme" ∧
    ∀ t, xmlEvidenceWritten.root.Says t →
      (∃ s, xmlEvidence.root.Says s ∧ (t = sanitize s ∨ t = sanitize (trim s))) ∨ NoText t := by
  refine ⟨?_, reencodeXML_says _ _ _ _ xmlEvidence_read xmlEvidence_written⟩
  refine .kid (.head _) (.kid (.head _) (.kid (.tail _ <| .tail _ <| .tail _ <| .head _) (.kid (.head _) (.kid (.head _)
    (.kid (.head _) ?_)))))
  exact .text (ks := [.text "/lib/acme"])

/-- A document with a component … -/
def xmlSaid : XmlDoc where
  space := "http://cyclonedx.org/schema/bom/1.5"
  root := .elem "bom" [("xmlns", "http://cyclonedx.org/schema/bom/1.5"), ("version", "1")] [
    .elem "components" [] [.elem "component" [("type", "library")] [.elem "name" [] [.text "acme"]]]]
/-- … and one with a service and something that no version knows. -/
def xmlSaidThen : XmlDoc where
  space := "http://cyclonedx.org/schema/bom/1.6"
  root := .elem "bom" [("xmlns", "http://cyclonedx.org/schema/bom/1.6"), ("version", "2")] [
    .elem "services" [] [.elem "service" [("odd", "x")] [.elem "name" [] [.text "ping"]]]]

/-- What is read from the first … -/
def xmlSaidBOM : BOM where
  xmlName := ⟨"http://cyclonedx.org/schema/bom/1.5", "bom"⟩
  xmlns := "http://cyclonedx.org/schema/bom/1.5"
  specVersion := 6
  version := 1
  components := .list [{ type := "library", name := "acme" }]
/-- … and from the second into that. -/
def xmlSaidThenBOM : BOM where
  xmlName := ⟨"http://cyclonedx.org/schema/bom/1.6", "bom"⟩
  xmlns := "http://cyclonedx.org/schema/bom/1.6"
  specVersion := 7
  version := 2
  components := .list [{ type := "library", name := "acme" }]
  services := .list [{ name := "ping" }]
/-- What is written then. -/
def xmlSaidAgain : XmlDoc where
  space := "http://cyclonedx.org/schema/bom/1.6"
  root := .elem "bom" [("xmlns", "http://cyclonedx.org/schema/bom/1.6"), ("version", "2")] [
    .elem "components" [] [.elem "component" [("type", "library")] [.elem "name" [] [.text "acme"]]],
    .elem "services" [] [.elem "service" [] [.elem "name" [] [.text "ping"]]]]

set_option maxRecDepth 10000 in
theorem xmlSaid_read : decodeXML xmlNamespaces xmlSaid {} = some xmlSaidBOM := rfl
set_option maxRecDepth 10000 in
theorem xmlSaid_written : encodeXML xmlSaidBOM = some xmlSaid := rfl
set_option maxRecDepth 10000 in
theorem xmlSaidThen_read : decodeXML xmlNamespaces xmlSaidThen xmlSaidBOM = some xmlSaidThenBOM := rfl
set_option maxRecDepth 10000 in
theorem xmlSaidThen_written : encodeXML xmlSaidThenBOM = some xmlSaidAgain := rfl

theorem xmlSaid_clean (s : String) (h : xmlSaid.root.Says s) : XString s := by
  have ok : ∀ s : String, sanitize s = s → XString s := fun s => (sanitize_eq s).1
  have : Wrote XString xmlSaid.root := by
    refine heard_elem (by simpa using ⟨ok _ (by decide +kernel), ok _ (by decide +kernel)⟩) (fun k hk => ?_) (ok _ (by decide +kernel))
    cases List.mem_singleton.1 hk
    refine (heard_elem (by simp) (fun k hk => ?_) (ok _ (by decide +kernel))).2
    cases List.mem_singleton.1 hk
    refine (heard_elem (by simpa using ok _ (by decide +kernel)) (fun k hk => ?_) (ok _ (by decide +kernel))).2
    cases List.mem_singleton.1 hk
    refine (heard_elem (by simp) (fun k hk => ?_) (ok _ (by decide +kernel))).2
    cases List.mem_singleton.1 hk
    intro s hs
    cases hs
  exact this.2 s h

example : ∀ t, xmlSaid.root.Says t → xmlSaid.root.Says t ∨ (∃ s, xmlSaid.root.Says s ∧ t = trim s) ∨ NoText t :=
  reencodeXML_says_clean _ _ _ _ xmlSaid_clean xmlSaid_read xmlSaid_written

example : ∀ t, xmlSaidAgain.root.Says t →
    (∃ s, (xmlSaid.root.Says s ∨ xmlSaidThen.root.Says s) ∧ (t = sanitize s ∨ t = sanitize (trim s))) ∨ NoText t :=
  reencodeXML_says_over _ _ _ _ _ _ _ xmlSaid_read xmlSaidThen_read xmlSaidThen_written

/-! ## Where it is said -/

/-- A license expression in an element for expressions with details, of which there are none. -/
def xmlBare : XmlDoc where
  space := "http://cyclonedx.org/schema/bom/1.7"
  root := .elem "bom" [("xmlns", "http://cyclonedx.org/schema/bom/1.7"), ("version", "1")] [
    .elem "metadata" [] [.elem "licenses" [] [.elem "expression-detailed" [("expression", "MIT")] []]]]
/-- What is read from it … -/
def xmlBareBOM : BOM where
  xmlName := ⟨"http://cyclonedx.org/schema/bom/1.7", "bom"⟩
  xmlns := "http://cyclonedx.org/schema/bom/1.7"
  specVersion := 8
  version := 1
  metadata := some { licenses := .list [{ expression := "MIT" }] }
/-- … and written for that. -/
def xmlBareWritten : XmlDoc where
  space := "http://cyclonedx.org/schema/bom/1.7"
  root := .elem "bom" [("xmlns", "http://cyclonedx.org/schema/bom/1.7"), ("version", "1")] [
    .elem "metadata" [] [.elem "licenses" [] [.elem "expression" [] [.text "MIT"]]]]

/-- C94 does not say where in the document a text is, because it need not be in the same place, even in a valid
document: the attribute of an `expression-detailed` without details is written as the content of an `expression`. -/
theorem reencodeXML_moves : xmlBare.Valid SpecVersion1_7 ∧ decodeXML xmlNamespaces xmlBare {} = some xmlBareBOM ∧
    encodeXML xmlBareBOM = some xmlBareWritten ∧
    elemsAt ["metadata", "licenses", "expression"] xmlBare.root = [] ∧
    (elemsAt ["metadata", "licenses", "expression"] xmlBareWritten.root).map (fun x => textOf x.kids) = ["MIT"] :=
  ⟨⟨rfl, rfl, xvalid_of_check 5 _ _ (by decide +kernel)⟩, rfl, rfl, rfl, rfl⟩

end Verif.Props
