import Verif.Xml.Document
import Verif.Xml.PlainLaws
import Verif.Xml.FloatExample

/-! # C39, C40, C41, C42: XML documents -/

namespace Verif.Props

open Xml (sanitize)

set_option linter.unusedSectionVars false

variable [XFloatIO]

/-! ## C39 -/

/-- The namespace of version 1.`k` of the specification. -/
def namespaceOf (k : Nat) : String := "http://cyclonedx.org/schema/bom/1." ++ toString k

theorem mem_xmlNamespaces (v : Int) (ns : String) :
    (v, ns) ∈ xmlNamespaces ↔ ∃ k ≤ 7, ns = namespaceOf k ∧ v = k + 1 := by
  have hs : xmlNamespaces = (List.range 8).map fun (k : Nat) => ((k : Int) + 1, namespaceOf k) := by decide +kernel
  rw [hs]
  simp only [List.mem_map, List.mem_range, Prod.mk.injEq]
  constructor
  · rintro ⟨k, hk, rfl, rfl⟩; exact ⟨k, by omega, rfl, rfl⟩
  · rintro ⟨k, hk, rfl, rfl⟩; exact ⟨k, by omega, rfl, rfl⟩

theorem namespaceOf_inj {j k : Nat} (hj : j ≤ 7) (hk : k ≤ 7) (h : namespaceOf j = namespaceOf k) : j = k := by
  have : ∀ j ∈ List.range 8, ∀ k ∈ List.range 8, namespaceOf j = namespaceOf k → j = k := by decide +kernel
  exact this j (by simp; omega) k (by simp; omega) h

theorem versionOfNamespace_known {order : List (Int × String)} (hp : order.Perm xmlNamespaces) {b : BOM} {k : Nat}
    (hk : k ≤ 7) (h : b.xmlns = namespaceOf k) : versionOfNamespace order b = { b with specVersion := k + 1 } := by
  unfold versionOfNamespace
  split
  · rename_i e he
    have h1 := List.find?_some he
    have h2 := hp.mem_iff.1 (List.mem_of_find?_eq_some he)
    obtain ⟨j, hj, h3, h4⟩ := (mem_xmlNamespaces e.1 e.2).1 h2
    simp only [decide_eq_true_eq] at h1
    have : j = k := namespaceOf_inj hj hk (by rw [← h3, h1, h])
    rw [h4, this]
  · rename_i he
    have h1 := List.find?_eq_none.1 he ((k : Int) + 1, namespaceOf k)
      (hp.mem_iff.2 ((mem_xmlNamespaces _ _).2 ⟨k, hk, rfl, rfl⟩))
    simp [h] at h1

theorem versionOfNamespace_unknown {order : List (Int × String)} (hp : order.Perm xmlNamespaces) {b : BOM}
    (h : ∀ k ≤ 7, b.xmlns ≠ namespaceOf k) : versionOfNamespace order b = b := by
  unfold versionOfNamespace
  split
  · rename_i e he
    have h1 := List.find?_some he
    have h2 := hp.mem_iff.1 (List.mem_of_find?_eq_some he)
    obtain ⟨j, hj, h3, h4⟩ := (mem_xmlNamespaces e.1 e.2).1 h2
    simp only [decide_eq_true_eq] at h1
    exact absurd (h1.symm.trans h3) (h j hj)
  · rfl

theorem versionOfNamespace_order {order order' : List (Int × String)} (hp : order.Perm xmlNamespaces)
    (hp' : order'.Perm xmlNamespaces) (b : BOM) : versionOfNamespace order b = versionOfNamespace order' b := by
  by_cases h : ∃ k ≤ 7, b.xmlns = namespaceOf k
  · obtain ⟨k, hk, h⟩ := h
    rw [versionOfNamespace_known hp hk h, versionOfNamespace_known hp' hk h]
  · have h' : ∀ k ≤ 7, b.xmlns ≠ namespaceOf k := fun k hk e => h ⟨k, hk, e⟩
    rw [versionOfNamespace_unknown hp h', versionOfNamespace_unknown hp' h']

/-- C39: the order in which Go goes through the table of namespaces makes no difference. -/
theorem xml_order_irrelevant (order order' : List (Int × String)) (hp : order.Perm xmlNamespaces)
    (hp' : order'.Perm xmlNamespaces) (doc : XmlDoc) (old : BOM) :
    decodeXML order doc old = decodeXML order' doc old := by
  unfold decodeXML
  rw [show versionOfNamespace order = versionOfNamespace order' from funext (versionOfNamespace_order hp hp')]

/-- The fields that XML does not have are the same. -/
def sameSkipped : {β : Type} → XFields β → β → β → Prop
  | _, .nil, _, _ => True
  | _, .skip _ F, p, q => q.1 = p.1 ∧ sameSkipped F p.2 q.2
  | _, .attr _ _ _ F, p, q => sameSkipped F p.2 q.2
  | _, .attrPtr _ _ F, p, q => sameSkipped F p.2 q.2
  | _, .chardata F, p, q => sameSkipped F p.2 q.2
  | _, .elem _ F, p, q => sameSkipped F p.2 q.2

theorem sameSkipped_refl {β : Type} (F : XFields β) (p : β) : sameSkipped F p p := by
  induction F <;> simp_all [sameSkipped]

theorem sameSkipped_trans {β : Type} (F : XFields β) {p q r : β} (h : sameSkipped F p q) (h' : sameSkipped F q r) :
    sameSkipped F p r := by
  induction F <;> simp only [sameSkipped] at h h' ⊢
  case skip ih => exact ⟨h'.1.trans h.1, ih h.2 h'.2⟩
  all_goals (rename_i ih; exact ih h h')

theorem sameSkipped_setAttr {β : Type} (F : XFields β) (kv : String × String) (p q : β)
    (h : F.setAttr kv p = some q) : sameSkipped F p q := by
  induction F <;> simp only [sameSkipped, XFields.setAttr] at h ⊢
  case skip ih => obtain ⟨r, hr, rfl⟩ := Option.map_eq_some_iff.1 h; exact ⟨rfl, ih _ _ hr⟩
  case attr ih =>
    split at h <;> obtain ⟨r, hr, rfl⟩ := Option.map_eq_some_iff.1 h
    · exact sameSkipped_refl _ _
    · exact ih _ _ hr
  case attrPtr ih =>
    split at h <;> obtain ⟨r, hr, rfl⟩ := Option.map_eq_some_iff.1 h
    · exact sameSkipped_refl _ _
    · exact ih _ _ hr
  all_goals (rename_i ih; obtain ⟨r, hr, rfl⟩ := Option.map_eq_some_iff.1 h; exact ih _ _ hr)

theorem sameSkipped_setKid {β : Type} (F : XFields β) (x : Xml) (p q : β)
    (h : F.setKid x p = some q) : sameSkipped F p q := by
  induction F <;> simp only [sameSkipped, XFields.setKid] at h ⊢
  case skip ih => obtain ⟨r, hr, rfl⟩ := Option.map_eq_some_iff.1 h; exact ⟨rfl, ih _ _ hr⟩
  case elem ih =>
    split at h <;> obtain ⟨r, hr, rfl⟩ := Option.map_eq_some_iff.1 h
    · exact sameSkipped_refl _ _
    · exact ih _ _ hr
  all_goals (rename_i ih; obtain ⟨r, hr, rfl⟩ := Option.map_eq_some_iff.1 h; exact ih _ _ hr)

theorem sameSkipped_setText {β : Type} (F : XFields β) (s : String) (p : β) : sameSkipped F p (F.setText s p) := by
  induction F <;> simp only [sameSkipped, XFields.setText]
  case skip ih => exact ⟨trivial, ih _⟩
  case chardata ih => exact sameSkipped_refl _ _
  all_goals (rename_i ih; exact ih _)

/-- Reading leaves the fields alone that XML does not have. -/
theorem sameSkipped_dec {β : Type} (F : XFields β) (x : Xml) (p q : β) (h : F.dec x p = some q) :
    sameSkipped F p q := by
  have attrs : ∀ as p q, F.decAttrs as p = some q → sameSkipped F p q := by
    intro as
    induction as with
    | nil => intro p q h; simp only [XFields.decAttrs, Option.some.injEq] at h; subst h; exact sameSkipped_refl _ _
    | cons kv as ih =>
      intro p q h
      simp only [XFields.decAttrs] at h
      split at h
      · cases h
      · rename_i r hr; exact sameSkipped_trans F (sameSkipped_setAttr _ _ _ _ hr) (ih _ _ h)
  have kids : ∀ ks p q, XField.decAll F.setKid ks p = some q → sameSkipped F p q := by
    intro ks
    induction ks with
    | nil => intro p q h; simp only [XField.decAll, Option.some.injEq] at h; subst h; exact sameSkipped_refl _ _
    | cons kv as ih =>
      intro p q h
      simp only [XField.decAll] at h
      split at h
      · cases h
      · rename_i r hr; exact sameSkipped_trans F (sameSkipped_setKid _ _ _ _ hr) (ih _ _ h)
  unfold XFields.dec at h
  split at h
  · cases h
  · rename_i r hr
    split at h
    · cases h
    · rename_i s hs
      cases h
      exact sameSkipped_trans F (sameSkipped_trans F (attrs _ _ _ hr) (kids _ _ _ hs)) (sameSkipped_setText _ _ _)

/-- Decoding into a BOM leaves the fields alone that XML does not have. -/
theorem bom_dec_keep {x : Xml} {old b : BOM} (h : X.bom.dec x old = some b) :
    b.xmlName = old.xmlName ∧ b.jsonSchema = old.jsonSchema ∧ b.bomFormat = old.bomFormat ∧
      b.specVersion = old.specVersion ∧ b.signature = old.signature := by
  obtain ⟨q, hq, rfl⟩ := Option.map_eq_some_iff.1 h
  have := sameSkipped_dec _ _ _ _ hq
  simp only [X.bomFields, sameSkipped] at this
  exact ⟨this.1, this.2.1, this.2.2.1, this.2.2.2.1, this.2.2.2.2.1⟩

/-- C39: after decoding, the version is the one the namespace of the document belongs to; if it belongs to none,
the version is the one that the variable held before. -/
theorem xml_version_from_namespace (order : List (Int × String)) (hp : order.Perm xmlNamespaces) (doc : XmlDoc)
    (old b : BOM) (h : decodeXML order doc old = some b) :
    (∃ k ≤ 7, b.xmlns = namespaceOf k ∧ b.specVersion = k + 1) ∨
      ((∀ k ≤ 7, b.xmlns ≠ namespaceOf k) ∧ b.specVersion = old.specVersion) := by
  unfold decodeXML at h
  split at h
  · obtain ⟨b', hb, rfl⟩ := Option.map_eq_some_iff.1 h
    have hk := (bom_dec_keep hb).2.2.2.1
    by_cases hn : ∃ k ≤ 7, b'.xmlns = namespaceOf k
    · obtain ⟨k, hk, hn⟩ := hn
      rw [versionOfNamespace_known hp hk hn]
      exact .inl ⟨k, hk, hn, rfl⟩
    · have h' : ∀ k ≤ 7, b'.xmlns ≠ namespaceOf k := fun k hk e => hn ⟨k, hk, e⟩
      rw [versionOfNamespace_unknown hp h']
      exact .inr ⟨h', hk⟩
  · cases h

/-! ## C40 -/

/-- The version whose namespace this is, or 0. -/
def namespaceVersion (ns : String) : Int :=
  match (List.range 8).find? fun k => namespaceOf k = ns with
  | some k => k + 1
  | none => 0

/-- The BOM without what XML does not have, with the name of the root element, and with the version of its
namespace. -/
def asXML (b : BOM) : BOM :=
  { b with xmlName := ⟨b.xmlns, "bom"⟩, jsonSchema := "", bomFormat := "", signature := none,
           specVersion := namespaceVersion b.xmlns }

theorem versionOfNamespace_zero {order : List (Int × String)} (hp : order.Perm xmlNamespaces) (b : BOM)
    (h : b.specVersion = 0) : versionOfNamespace order b = { b with specVersion := namespaceVersion b.xmlns } := by
  unfold namespaceVersion
  split
  · rename_i k hk
    have h1 := List.find?_some hk
    have h2 := List.mem_range.1 (List.mem_of_find?_eq_some hk)
    simp only [decide_eq_true_eq] at h1
    exact versionOfNamespace_known hp (by omega) h1.symm
  · rename_i hk
    rw [versionOfNamespace_unknown hp]
    · cases b; simp only at h; subst h; rfl
    · intro k hk' e
      have := List.find?_eq_none.1 hk k (by simp; omega)
      simp [e] at this

theorem encodeXML_some {b : BOM} {doc : XmlDoc} (h : encodeXML b = some doc) :
    doc.space = sanitize b.xmlns ∧ X.bom.enc "bom" b.xmlPart = some (some doc.root) := by
  have he : X.bom.enc "bom" b.xmlPart = X.bom.enc "bom" b := rfl
  unfold encodeXML at h
  split at h
  · rename_i root hr
    cases h
    exact ⟨rfl, he.trans hr⟩
  · cases h

theorem skip_dec {α β : Type} (z : α) (F : XFields β) (x : Xml) (a : α) (b : β) :
    (XFields.skip z F).dec x (a, b) = (F.dec x b).map (a, ·) := by
  have h1 : ∀ as b, (XFields.skip z F).decAttrs as (a, b) = (F.decAttrs as b).map (a, ·) := by
    intro as
    induction as with
    | nil => intro b; rfl
    | cons kv as ih =>
      intro b
      simp only [XFields.decAttrs, XFields.setAttr]
      cases F.setAttr kv b with
      | none => rfl
      | some b' => exact ih b'
  have h2 : ∀ ks b, XField.decAll (XFields.skip z F).setKid ks (a, b) = (XField.decAll F.setKid ks b).map (a, ·) := by
    intro ks
    induction ks with
    | nil => intro b; rfl
    | cons kv as ih =>
      intro b
      simp only [XField.decAll, XFields.setKid]
      cases F.setKid kv b with
      | none => rfl
      | some b' => exact ih b'
  unfold XFields.dec
  rw [h1]
  cases F.decAttrs x.attrs b with
  | none => rfl
  | some b₁ =>
    simp only [Option.map_some, h2]
    cases XField.decAll F.setKid x.kids b₁ <;> rfl

/-- The name of the root does not matter for the rest. -/
theorem bom_dec_name (x : Xml) (n : XMLName) (old : BOM) :
    X.bom.dec x { old with xmlName := n } = (X.bom.dec x old).map fun b => { b with xmlName := n } := by
  show ((X.bomFields.dec x (n, old.toP.2)).map BOM.ofP) = ((X.bomFields.dec x (old.toP.1, old.toP.2)).map BOM.ofP).map _
  unfold X.bomFields
  rw [skip_dec, skip_dec]
  simp only [Option.map_map]
  rfl

/-- What is read back is the canonical form of what was written. -/
theorem xml_reads_norm {order : List (Int × String)} {b : BOM} {doc : XmlDoc} (h : encodeXML b = some doc)
    (g : X.bom.good b.xmlPart) : decodeXML order doc {} =
      some (versionOfNamespace order { X.bom.norm b.xmlPart with xmlName := ⟨sanitize b.xmlns, "bom"⟩ }) := by
  obtain ⟨h1, h2⟩ := encodeXML_some h
  have hn : Xml.isElem "bom" doc.root = true := XLawful.named (c := X.bom) "bom" _ _ h2
  have hr := XLawful.round (c := X.bom) "bom" _ _ g h2
  unfold decodeXML
  rw [if_pos hn, bom_dec_name]
  have hz : X.bom.zero = {} := rfl
  rw [hz] at hr
  rw [hr, h1]
  rfl

/-- C40: decoding the XML written for a BOM that uses only what XML can represent yields the same BOM (with the
fields that XML does not have unset and the version of its namespace). -/
theorem xml_round_trip (order : List (Int × String)) (hp : order.Perm xmlNamespaces) (b : BOM) (doc : XmlDoc)
    (h : encodeXML b = some doc) (hx : b.XPlain) : decodeXML order doc {} = some (asXML b) := by
  have ho := (xok_bom b).2 hx
  rw [xml_reads_norm h ho.2.2, ho.2.1]
  have hs : sanitize b.xmlns = b.xmlns := (sanitize_eq _).2 hx.1
  rw [versionOfNamespace_zero hp _ rfl, hs]
  rfl

theorem bom_norm_xmlPart (b : BOM) : (X.bom.norm b.xmlPart).xmlPart = X.bom.norm b.xmlPart := rfl

/-- C40, the converse: a BOM that is not of this kind is changed.  (`X.bom.good` says that the integers in it are Go
integers.) -/
theorem xml_round_trip_only (order : List (Int × String)) (hp : order.Perm xmlNamespaces) (b : BOM) (doc : XmlDoc)
    (h : encodeXML b = some doc) (g : X.bom.good b.xmlPart) (hd : decodeXML order doc {} = some (asXML b)) :
    b.XPlain := by
  rw [← xok_bom]
  refine ⟨rfl, ?_, g⟩
  rw [xml_reads_norm h g, versionOfNamespace_zero hp _ rfl] at hd
  have hb := Option.some.inj hd
  have hm := bom_norm_xmlPart b
  generalize X.bom.norm b.xmlPart = m at hb hm ⊢
  have h1 := congrArg BOM.xmlPart hb
  exact hm.symm.trans h1


/-- A BOM with tools, nested components, licenses, a dependency and evidence. -/
def exampleXML : BOM :=
  let inner : Component := { type := "library", name := "inner" }
  let licensed : LicenseChoice := { license := some { id := "MIT" } }
  let both : LicenseChoice := { expression := "MIT OR Apache-2.0", bomRef := "l" }
  let outer : Component := { type := "application", name := "a < b & c", components := .list [inner], licenses := .list [licensed, both], evidence := some { copyright := .list [{ text := "2024" }] } }
  let tool : ToolsChoice := { tools := .list [{ vendor := "v", name := "t" }] }
  { newBOM with
    metadata := some { tools := some tool }
    components := .list [outer]
    dependencies := .list [{ ref := "x", dependencies := .list ["y", "z"] }] }

instance (i : Int) : Decidable (InInt64 i) := by unfold InInt64; infer_instance
instance (c : Char) : Decidable (XmlChar c) := by unfold XmlChar; infer_instance
instance (s : String) : Decidable (XString s) := by unfold XString; infer_instance

omit [XFloatIO] in
theorem exampleXML_plain : exampleXML.XPlain := by
  simp [exampleXML, newBOM, BOM.XPlain, PSlice.XEach, Metadata.XPlain, ToolsChoice.XPlain, Tool.XPlain, Component.XPlain, XPlainComponentList, XPlainComponents, XPlainPedigreeOpt, LicenseChoice.XPlain, License.XPlain, Evidence.XPlain, Copyright.XPlain, Dependency.XPlain]
  decide +kernel

set_option maxRecDepth 10000 in
/-- A case of `xml_round_trip`. -/
example : ∃ doc, encodeXML exampleXML = some doc ∧ exampleXML.XPlain ∧
    decodeXML xmlNamespaces doc {} = some (asXML exampleXML) :=
  ⟨_, rfl, exampleXML_plain, rfl⟩

/-- A case of `xml_version_from_namespace` and `xml_order_irrelevant`: another order, a known namespace. -/
example : (decodeXML xmlNamespaces.reverse
      { space := namespaceOf 4, root := .elem "bom" [("xmlns", namespaceOf 4)] [] } {}).map (·.specVersion) = some 5 ∧
    xmlNamespaces.reverse.Perm xmlNamespaces :=
  ⟨rfl, List.reverse_perm _⟩

/-- An unknown namespace leaves the version as it was. -/
example : (decodeXML xmlNamespaces { space := "x", root := .elem "bom" [("xmlns", "x")] [] }
    { specVersion := 3 }).map (·.specVersion) = some 3 := rfl

/-! ## C41 -/

theorem xok_round {α : Type} {c : XCodec α} [XLawful c] {n : String} {x : α} {o : Option Xml} (hx : X.Ok c x)
    (h : c.enc n x = some o) : ∃ e, o = some e ∧ c.dec e c.zero = some x := by
  have hw := XLawful.writes _ _ _ h
  rw [hx.1] at hw
  obtain ⟨e, rfl⟩ := Option.isSome_iff_exists.1 hw
  have hr := XLawful.round _ _ _ hx.2.2 h
  rw [hx.2.1] at hr
  exact ⟨e, rfl, hr⟩

/-- C41: a dependency is written as an element and read back as it was. -/
theorem xml_dependency (n : String) (x : Dependency) (o : Option Xml) (h : X.dependency.enc n x = some o) (hx : x.XPlain) :
    ∃ e, o = some e ∧ X.dependency.dec e {} = some x :=
  xok_round ((xok_dependency x).2 hx) h

/-- C41: a license is written as an element and read back as it was. -/
theorem xml_license (n : String) (x : License) (o : Option Xml) (h : X.license.enc n x = some o) (hx : x.XPlain) :
    ∃ e, o = some e ∧ X.license.dec e {} = some x :=
  xok_round ((xok_license x).2 hx) h

/-- C41: a copyright is written as an element and read back as it was. -/
theorem xml_copyright (n : String) (x : Copyright) (o : Option Xml) (h : X.copyright.enc n x = some o) (hx : x.XPlain) :
    ∃ e, o = some e ∧ X.copyright.dec e {} = some x :=
  xok_round ((xok_copyright x).2 hx) h

/-- C41: evidence is written as an element and read back as it was. -/
theorem xml_evidence (n : String) (x : Evidence) (o : Option Xml) (h : X.evidence.enc n x = some o) (hx : x.XPlain) :
    ∃ e, o = some e ∧ X.evidence.dec e {} = some x :=
  xok_round ((xok_evidence x).2 hx) h

/-- C41: a data classification is written as an element and read back as it was. -/
theorem xml_dataClassification (n : String) (x : DataClassification) (o : Option Xml) (h : X.dataClassification.enc n x = some o) (hx : x.XPlain) :
    ∃ e, o = some e ∧ X.dataClassification.dec e {} = some x :=
  xok_round ((xok_dataClassification x).2 hx) h

/-- C41: tools is written as an element and read back as it was. -/
theorem xml_toolsChoice (n : String) (x : ToolsChoice) (o : Option Xml) (h : X.toolsChoice.enc n x = some o) (hx : x.XPlain) :
    ∃ e, o = some e ∧ X.toolsChoice.dec e {} = some x :=
  xok_round ((xok_toolsChoice x).2 hx) h

/-- C41: a certificate state is written as an element and read back as it was. -/
theorem xml_certificateState (n : String) (x : CertificateState) (o : Option Xml) (h : X.certificateState.enc n x = some o) (hx : x.XPlain) :
    ∃ e, o = some e ∧ X.certificateState.dec e {} = some x :=
  xok_round ((xok_certificateState x).2 hx) h

/-- C41: a certificate extension is written as an element and read back as it was. -/
theorem xml_certificateExtension (n : String) (x : CertificateExtension) (o : Option Xml) (h : X.certificateExtension.enc n x = some o) (hx : x.XPlain) :
    ∃ e, o = some e ∧ X.certificateExtension.dec e {} = some x :=
  xok_round ((xok_certificateExtension x).2 hx) h

/-- C41: an asserter is written as an element and read back as it was. -/
theorem xml_asserterChoice (n : String) (x : AsserterChoice) (o : Option Xml) (h : X.asserterChoice.enc n x = some o) (hx : x.XPlain) :
    ∃ e, o = some e ∧ X.asserterChoice.dec e {} = some x :=
  xok_round ((xok_asserterChoice x).2 hx) h

/-- C41: an IKEv2 transform is written as an element and read back as it was. -/
theorem xml_ikev2Auth (n : String) (x : IKEv2Auth) (o : Option Xml) (h : X.ikev2Auth.enc n x = some o) (hx : x.XPlain) :
    ∃ e, o = some e ∧ X.ikev2Auth.dec e {} = some x :=
  xok_round ((xok_ikev2Auth x).2 hx) h

/-- C41: an IKEv2 transform is written as an element and read back as it was. -/
theorem xml_ikev2Enc (n : String) (x : IKEv2Enc) (o : Option Xml) (h : X.ikev2Enc.enc n x = some o) (hx : x.XPlain) :
    ∃ e, o = some e ∧ X.ikev2Enc.dec e {} = some x :=
  xok_round ((xok_ikev2Enc x).2 hx) h

/-- C41: an IKEv2 transform is written as an element and read back as it was. -/
theorem xml_ikev2Integ (n : String) (x : IKEv2Integ) (o : Option Xml) (h : X.ikev2Integ.enc n x = some o) (hx : x.XPlain) :
    ∃ e, o = some e ∧ X.ikev2Integ.dec e {} = some x :=
  xok_round ((xok_ikev2Integ x).2 hx) h

/-- C41: an IKEv2 transform is written as an element and read back as it was. -/
theorem xml_ikev2Ke (n : String) (x : IKEv2Ke) (o : Option Xml) (h : X.ikev2Ke.enc n x = some o) (hx : x.XPlain) :
    ∃ e, o = some e ∧ X.ikev2Ke.dec e {} = some x :=
  xok_round ((xok_ikev2Ke x).2 hx) h

/-- C41: an IKEv2 transform is written as an element and read back as it was. -/
theorem xml_ikev2Prf (n : String) (x : IKEv2Prf) (o : Option Xml) (h : X.ikev2Prf.enc n x = some o) (hx : x.XPlain) :
    ∃ e, o = some e ∧ X.ikev2Prf.dec e {} = some x :=
  xok_round ((xok_ikev2Prf x).2 hx) h

/-- C41: a dataset choice is written as an element and read back as it was. -/
theorem xml_mlDatasetChoice (n : String) (x : MLDatasetChoice) (o : Option Xml) (h : X.mlDatasetChoice.enc n x = some o) (hx : x.XPlain) :
    ∃ e, o = some e ∧ X.mlDatasetChoice.dec e {} = some x :=
  xok_round ((xok_mlDatasetChoice x).2 hx) h

/-- C41: definitions is written as an element and read back as it was. -/
theorem xml_definitions (n : String) (x : Definitions) (o : Option Xml) (h : X.definitions.enc n x = some o) (hx : x.XPlain) :
    ∃ e, o = some e ∧ X.definitions.dec e {} = some x :=
  xok_round ((xok_definitions x).2 hx) h

/-- C41: licenses are written as an element and read back as they were. -/
theorem xml_licenses (n : String) (xs : List LicenseChoice) (o : Option Xml) (h : X.licenses.enc n xs = some o)
    (hn : xs ≠ []) (hx : ∀ x ∈ xs, LicenseChoice.XPlain x) : ∃ e, o = some e ∧ X.licenses.dec e [] = some xs :=
  xok_round ((xok_licenses xs).2 ⟨hn, hx⟩) h

/-- C41: environment variables are written as an element and read back as they were. -/
theorem xml_environmentVariables (n : String) (xs : List EnvironmentVariableChoice) (o : Option Xml)
    (h : X.environmentVariables.enc n xs = some o) (hn : xs ≠ [])
    (hx : ∀ x ∈ xs, EnvironmentVariableChoice.XPlain x) :
    ∃ e, o = some e ∧ X.environmentVariables.dec e [] = some xs :=
  xok_round ((xok_environmentVariables xs).2 ⟨hn, hx⟩) h

/-- Cases of the theorems above. -/
example : ∃ e, X.licenses.enc "licenses" [{ license := some { id := "MIT" } }, { expression := "MIT" }] = some (some e) ∧
    X.licenses.dec e [] = some [{ license := some { id := "MIT" } }, { expression := "MIT" }] := ⟨_, rfl, rfl⟩

example : ∃ e, X.dataClassification.enc "classification" { flow := "inbound", classification := "PII", source := .list ["u"] } = some (some e) ∧
    X.dataClassification.dec e {} = some { flow := "inbound", classification := "PII", source := .list ["u"] } := ⟨_, rfl, rfl⟩

example : ∃ e, X.ikev2Enc.enc "encr" { name := "AES", keyLength := some 256 } = some (some e) ∧
    X.ikev2Enc.dec e {} = some { name := "AES", keyLength := some 256 } := ⟨_, rfl, rfl⟩

/-- A BOM with a piece of evidence whose data are classified. -/
def classifiedEvidence : BOM :=
  { newBOM with declarations := some { evidence := .list [{ data := .list [{ name := "d", classification := some { classification := "PII" } }] }] } }

/-- The classification of the first data of the first piece of evidence. -/
def firstClassification (b : BOM) : Option DataClassification :=
  match b.declarations with
  | some d => match d.evidence with
    | .list (e :: _) => match e.data with
      | .list (x :: _) => x.classification
      | _ => none
    | _ => none
  | none => none

set_option maxRecDepth 10000 in
/-- C41 fails for data classifications of the evidence of declarations: they are written, without an error, as an
element that is not read back. -/
theorem xml_evidence_classification_lost : ∃ doc b, encodeXML classifiedEvidence = some doc ∧
    decodeXML xmlNamespaces doc {} = some b ∧ firstClassification classifiedEvidence ≠ none ∧
    firstClassification b = none := by
  refine ⟨_, _, rfl, rfl, ?_, rfl⟩
  intro h; cases h

/-- A document as the schema of version 1.7 has it, with a classification of the data of a piece of evidence. -/
def classifiedDocument : XmlDoc :=
  { space := "http://cyclonedx.org/schema/bom/1.7", root := .elem "bom" [("xmlns", "http://cyclonedx.org/schema/bom/1.7")]
      [.elem "declarations" [] [.elem "evidence" [] [.elem "evidence" []
        [.elem "data" [] [.elem "classification" [] [.text "PII"]]]]]] }

set_option maxRecDepth 10000 in
/-- C41: and the classification in a document that has one is passed over without an error. -/
theorem xml_evidence_classification_ignored : ∃ b, decodeXML xmlNamespaces classifiedDocument {} = some b ∧
    firstClassification b = none := ⟨_, rfl, rfl⟩

/-! ## C42 -/

omit [XFloatIO] in
theorem newBOM_xplain : newBOM.XPlain := by
  refine ⟨by decide +kernel, by decide +kernel, by decide +kernel, ?_⟩
  simp [newBOM, PSlice.XEach]

set_option maxRecDepth 10000 in
/-- C42 (XML): `NewBOM()` can be written, and reading it back gives it without the fields that are not part of the
XML format; in particular in the same version. -/
theorem newBOM_xml_partial (order : List (Int × String)) (hp : order.Perm xmlNamespaces) :
    ∃ doc, encodeXML newBOM = some doc ∧
      decodeXML order doc {} = some { newBOM with xmlName := ⟨newBOM.xmlns, "bom"⟩, jsonSchema := "", bomFormat := "" } := by
  refine ⟨_, rfl, ?_⟩
  rw [xml_round_trip order hp newBOM _ rfl newBOM_xplain]
  rfl

/-! ## C49 -/

/-- A document with a component that has an empty evidence element. -/
def emptyEvidence : XmlDoc :=
  { space := "http://cyclonedx.org/schema/bom/1.7", root := .elem "bom" [("xmlns", "http://cyclonedx.org/schema/bom/1.7")]
      [.elem "components" [] [.elem "component" [] [.elem "evidence" [] []]]] }

/-- Whether the first component has evidence. -/
def hasEvidence (b : BOM) : Bool :=
  match b.components with
  | .list (c :: _) => c.evidence.isSome
  | _ => false

set_option maxRecDepth 10000 in
/-- C49 fails: the second reading differs from the first. -/
theorem xml_reread_unstable : ∃ b doc b', decodeXML xmlNamespaces emptyEvidence {} = some b ∧
    encodeXML b = some doc ∧ decodeXML xmlNamespaces doc {} = some b' ∧ hasEvidence b = true ∧ hasEvidence b' = false :=
  ⟨{ xmlName := ⟨"http://cyclonedx.org/schema/bom/1.7", "bom"⟩, xmlns := "http://cyclonedx.org/schema/bom/1.7", specVersion := 8, components := .list [{ evidence := some {} }] }, _,
    { xmlName := ⟨"http://cyclonedx.org/schema/bom/1.7", "bom"⟩, xmlns := "http://cyclonedx.org/schema/bom/1.7", specVersion := 8, components := .list [{}] }, rfl, rfl, rfl, rfl, rfl⟩

/-- A document with a license that has both an identifier and a name. -/
def doublyNamedDocument : XmlDoc :=
  { space := "http://cyclonedx.org/schema/bom/1.7", root := .elem "bom" [("xmlns", "http://cyclonedx.org/schema/bom/1.7")]
      [.elem "metadata" [] [.elem "licenses" []
        [.elem "license" [] [.elem "id" [] [.text "MIT"], .elem "name" [] [.text "MIT"]]]]] }

set_option maxRecDepth 10000 in
/-- C49 fails even more: a document that is read, but what is read cannot be written. -/
theorem xml_read_unwritable : ∃ b, decodeXML xmlNamespaces doublyNamedDocument {} = some b ∧ encodeXML b = none :=
  ⟨_, rfl, rfl⟩

theorem decodeXML_shape {order : List (Int × String)} (hp : order.Perm xmlNamespaces) {doc : XmlDoc} {b : BOM}
    (h : decodeXML order doc {} = some b) : b.xmlName = ⟨doc.space, "bom"⟩ ∧ b.jsonSchema = "" ∧ b.bomFormat = "" ∧
      b.specVersion = namespaceVersion b.xmlns ∧ b.signature = none := by
  unfold decodeXML at h
  split at h
  · obtain ⟨b', hb, rfl⟩ := Option.map_eq_some_iff.1 h
    have hk := bom_dec_keep hb
    rw [versionOfNamespace_zero hp b' hk.2.2.2.1]
    exact ⟨hk.1, hk.2.1, hk.2.2.1, rfl, hk.2.2.2.2⟩
  · cases h

/-- C49, for what XML can represent: a document that was read, written and read again gives the same BOM.
Missing: values that only an XML document with empty elements leads to. -/
theorem xml_reread_partial (order : List (Int × String)) (hp : order.Perm xmlNamespaces) (doc doc' : XmlDoc) (b : BOM)
    (h : decodeXML order doc {} = some b) (hs : b.xmlns = doc.space) (hx : b.XPlain)
    (he : encodeXML b = some doc') : decodeXML order doc' {} = some b := by
  rw [xml_round_trip order hp b doc' he hx]
  obtain ⟨h1, h2, h3, h4, hg⟩ := decodeXML_shape hp h
  rw [← hs] at h1
  cases b
  simp only at h1 h2 h3 h4 hg
  subst h1 h2 h3 h4 hg
  rfl

end Verif.Props
