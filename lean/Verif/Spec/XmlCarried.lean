import Verif.Spec.XmlRefused

/-!
# What an XML document says is also said by another one

`XCarried p x x'`: everything that the element `x`, which is at place `p`, says is also in `x'`: the attributes by name,
the text, and for every name the elements of that name, one after the other.  Excepted are elements that say nothing
(`XBlank`, they may be left out), and the attributes and elements for which the Go types have no place
(`XPlace.unreadAttrs`, `XPlace.Unread`).  Conversely `x'` says nothing that is not in `x`: what is in `x'` only is empty
(`XBare`).  Elements of different names may change places.
-/

namespace Verif

open Xml (trim textOf sanitize)

section
variable [XFloatIO]

/-- The same text or, where a text is taken as a boolean or a number, the same boolean or number. -/
def XScalar.Same : Option XScalar → String → String → Prop
  | none, s, s' => s' = sanitize s
  | some .bool, s, s' => ∃ b, XText.bool.dec s = some b ∧ s' = if b then "true" else "false"
  | some .int, s, s' => ∃ i, XText.int.dec s = some i ∧ XText.int.dec s' = some i
  | some .float32, s, s' => ∃ x, XText.f32.dec s = some x ∧ XText.f32.dec s' = some x.canonNaN
  | some .float64, s, s' => ∃ x, XText.f64.dec s = some x ∧ XText.f64.dec s' = some x.canonNaN

/-- A text that stands for nothing: nothing but white space, zero or `false`. -/
def BareText (s : String) : Prop :=
  trim s = "" ∨ s = "0" ∨ s = "false" ∨ XText.f32.dec s = some ⟨0⟩ ∨ XText.f64.dec s = some ⟨0⟩

/-- An element without content. -/
inductive XBare : Xml → Prop
  | mk {n : String} {as : List (String × String)} {ks : List Xml} (ha : ∀ kv ∈ as, kv.2 = "") (ht : BareText (textOf ks))
      (hk : ∀ m bs ls, Xml.elem m bs ls ∈ ks → XBare (.elem m bs ls)) : XBare (.elem n as ks)
end

/-- The elements in the elements at a place with what they are read as.  A dependency in a dependency is read as a
reference, whatever is in it (cyclonedx_xml.go:97-116); whoever is responsible for data as one of an organization and a
contact (cyclonedx.go:328-331). -/
def XPlace.carries : XPlace → List (String × XPlace)
  | .dependency => [("dependency", .bomReference), ("provides", .bomReference)]
  | .dataGovernanceCustodians => [("custodian", .asserter)]
  | .dataGovernanceStewards => [("steward", .asserter)]
  | .dataGovernanceOwners => [("owner", .asserter)]
  | p => p.content.els

/-- The attributes that no field of the Go types takes. -/
def XPlace.unreadAttrs : XPlace → List String
  | .component => ["isExternal"]
  | .licenseExpressionDetailedTypeDetails => ["bom-ref"]
  | _ => []

/-- The elements that no field of the Go types takes: there is none, or it takes the attribute of that name, or it takes
a reference from an attribute `ref` where the schema declares text, or it looks for the content one level too high. -/
def XPlace.unread : XPlace → List String
  | .occurrence => ["additionalContext", "line", "offset", "symbol"]
  | .callstack => ["tools"]
  | .serviceData => ["classification"]
  | .swid => ["url"]
  | .datasets => ["ref"]
  | .data => ["classification"]
  | .licenseExpressionDetailed => ["licensing", "properties"]
  | .contents => ["properties"]
  | .protocolProperties => ["cipherSuites", "cryptoRef"]
  | .bomReference => ["dependency", "provides"]
  | .asserter => ["individual", "ref"]
  | .patentFamilyTypeMembers => ["ref"]
  | .citation => ["attributedTo"]
  | .patentRefs => ["bom-ref"]
  | .attestation => ["assessor"]
  | .claim => ["counterEvidence", "evidence", "target"]
  | .claimMitigationStrategies => ["mitigationStrategy"]
  | .certificateProperties => ["signatureAlgorithmRef", "subjectPublicKeyRef"]
  | .relatedCryptoMaterialProperties => ["algorithmRef"]
  | .declarationsAttestationsAttestationMapClaims => ["claim"]
  | .counterClaims => ["counterClaim"]
  | .securedBy => ["algorithmRef"]
  | _ => []

/-- The elements that are not read.  The value of a common certificate extension is read only with a name
(cyclonedx_xml.go:515-524). -/
def XPlace.Unread (p : XPlace) (ks : List Xml) (m : String) : Prop :=
  m ∈ p.unread ∨
    p = .certificateExtension ∧ m = "commonExtensionValue" ∧ ∀ k ∈ ks, k.isElem "commonExtensionName" = true → textOf k.kids = ""

/-- The elements that the schema of some version lets occur repeatedly where the Go types have place for one. -/
def XPlace.single : XPlace → List String
  | .license => ["id", "name"]
  | .organizationalContact => ["email", "phone"]
  | .metadata => ["manufacture", "supplier"]
  | .composition => ["aggregate", "assemblies", "dependencies", "vulnerabilities"]
  | .releaseNotes => ["aliases", "description", "featuredImage", "notes", "properties", "resolves", "socialImage", "tags",
      "timestamp", "title", "type"]
  | .vulnerabilitySource => ["name", "url"]
  | .notesNote => ["locale", "text"]
  | .workspace => ["accessMode", "aliases", "description", "managedDataType", "mountPath", "name", "properties",
      "resourceReferences", "uid", "volume", "volumeRequest"]
  | .environmentalConsiderations => ["energyConsumptions"]
  | _ => []

/-- The elements about which nothing is said: repeated ones where the Go types have place for one, and expressions beside
an `expression-detailed` without details, which is written as an `expression` (cyclonedx_xml.go:240-262). -/
def XPlace.Merged (p : XPlace) (ks : List Xml) (m : String) : Prop :=
  m ∈ p.single ∧ 2 ≤ (ks.filter (Xml.isElem m)).length ∨
    p = .licenseChoice ∧ m ∈ ["expression", "expression-detailed"] ∧
      ∃ k ∈ ks, k.isElem "expression-detailed" = true ∧ ∀ l ∈ k.kids, l.isElem "details" = false

/-- The element says nothing: no text, no attribute that is not empty, no element that says something.  An expression
without text and one whose attribute is empty say nothing either. -/
inductive XBlank : XPlace → Xml → Prop
  | mk {p : XPlace} {n : String} {as : List (String × String)} {ks : List Xml}
      (ha : ∀ kv ∈ as, kv.1 ∉ p.unreadAttrs → kv.2 = "") (ht : p.mixed = true → textOf ks = "")
      (hk : ∀ m bs ls q, Xml.elem m bs ls ∈ ks → m ∉ p.unread → (m, q) ∈ p.carries → XBlank q (.elem m bs ls)) :
      XBlank p (.elem n as ks)
  | expression {n : String} {as : List (String × String)} {ks : List Xml} (ht : textOf ks = "") :
      XBlank .licenseExpression (.elem n as ks)
  | detailed {n : String} {as : List (String × String)} {ks : List Xml} (ha : ∀ kv ∈ as, kv.1 = "expression" → kv.2 = "") :
      XBlank .licenseExpressionDetailed (.elem n as ks)

/-- `false` and zero may be left out too where they say as much as nothing (`omitempty`): cyclonedx.go:1782, 1639. -/
def ZeroLeftOut (p : XPlace) (m : String) (s : String) : Prop :=
  p = .assessor ∧ m = "thirdParty" ∧ XText.bool.dec s = some false ∨ p = .cwes ∧ m = "cwe" ∧ XText.int.dec s = some 0

variable [XFloatIO]

/-- What the attributes say is said by the others, and the others say no more. -/
def AttrsCarried (p : XPlace) (as as' : List (String × String)) : Prop :=
  (∀ kv ∈ as, kv.1 ∉ p.unreadAttrs → kv.2 ≠ "" →
    ∃ s', (kv.1, s') ∈ as' ∧ XScalar.Same (p.scalarAttrs.lookup kv.1) kv.2 s') ∧
  ∀ kv ∈ as', kv.2 = "" ∨ (∃ k, (kv.1, k) ∈ p.scalarAttrs) ∧ BareText kv.2 ∨
    ∃ s, (kv.1, s) ∈ as ∧ XScalar.Same (p.scalarAttrs.lookup kv.1) s kv.2

/-- The text stays the same.  Where it is a reference to an algorithm white space is taken away, and it is lost beside
elements (cyclonedx_xml.go:566-596). -/
def TextCarried (p : XPlace) (ks ks' : List Xml) : Prop :=
  if p ∈ [.encr, .prf, .ke] then
    textOf ks' = sanitize (trim (textOf ks)) ∨ textOf ks' = "" ∧ Xml.elements ks ≠ []
  else if p.mixed then textOf ks' = sanitize (textOf ks)
  else textOf ks' = ""

mutual
/-- See the header. -/
inductive XCarried : XPlace → Xml → Xml → Prop
  | mk {p : XPlace} {n : String} {as as' : List (String × String)} {ks ks' : List Xml} (ha : AttrsCarried p as as')
      (ht : TextCarried p ks ks')
      (hk : ∀ m, ¬ p.Unread ks m → ¬ p.Merged ks m → XAligned p m (ks.filter (Xml.isElem m)) (ks'.filter (Xml.isElem m)))
      (hu : ∀ m, p.Unread ks m → ∀ y ∈ ks', y.isElem m = true → XBare y) :
      XCarried p (.elem n as ks) (.elem n as' ks')
/-- The elements called `m` in an element at place `p`, one after the other. -/
inductive XAligned : XPlace → String → List Xml → List Xml → Prop
  | nil {p : XPlace} {m : String} : XAligned p m [] []
  | both {p q : XPlace} {m : String} {x y : Xml} {xs ys : List Xml} (hq : (m, q) ∈ p.carries)
      (hs : p.scalarElems.lookup m = none) (h : XCarried q x y) (ht : XAligned p m xs ys) :
      XAligned p m (x :: xs) (y :: ys)
  | scalar {p : XPlace} {k : XScalar} {m : String} {x y : Xml} {xs ys : List Xml} (hs : p.scalarElems.lookup m = some k)
      (h : XScalar.Same (some k) (textOf x.kids) (textOf y.kids)) (ht : XAligned p m xs ys) :
      XAligned p m (x :: xs) (y :: ys)
  | drop {p q : XPlace} {m : String} {x : Xml} {xs ys : List Xml} (hq : (m, q) ∈ p.carries) (h : XBlank q x)
      (ht : XAligned p m xs ys) : XAligned p m (x :: xs) ys
  | zero {p : XPlace} {m : String} {x : Xml} {xs ys : List Xml} (h : ZeroLeftOut p m (textOf x.kids))
      (ht : XAligned p m xs ys) : XAligned p m (x :: xs) ys
  | add {p : XPlace} {m : String} {y : Xml} {xs ys : List Xml} (h : XBare y) (ht : XAligned p m xs ys) :
      XAligned p m xs (y :: ys)
end

/-- The element says `s` in the attribute `a` of an element, or as its text, at the end of a path of elements; on the way
there are no elements that are not read, that are repeated where there is place for one, or that are left out. -/
inductive XSaid : XPlace → Xml → List String → Option String → String → Prop
  | attr {p : XPlace} {n a s : String} {as : List (String × String)} {ks : List Xml} (h : (a, s) ∈ as)
      (hu : a ∉ p.unreadAttrs) (hs : p.scalarAttrs.lookup a = none) (hn : s ≠ "") : XSaid p (.elem n as ks) [] (some a) s
  | text {p : XPlace} {n : String} {as : List (String × String)} {ks : List Xml} (hm : p.mixed = true)
      (ho : p ∉ [.encr, .prf, .ke]) (hn : textOf ks ≠ "") : XSaid p (.elem n as ks) [] none (textOf ks)
  | inside {p q : XPlace} {n m s : String} {as bs : List (String × String)} {ks ls : List Xml} {path : List String}
      {a : Option String} (hk : Xml.elem m bs ls ∈ ks) (hu : ¬ p.Unread ks m) (hm : ¬ p.Merged ks m) (hq : (m, q) ∈ p.carries)
      (hs : p.scalarElems.lookup m = none) (he : q = .licenseExpression → textOf ls ≠ "")
      (hd : q = .licenseExpressionDetailed → ∃ s, ("expression", s) ∈ bs ∧ s ≠ "") (h : XSaid q (.elem m bs ls) path a s) :
      XSaid p (.elem n as ks) (m :: path) a s

/-- The text `s` is in the attribute `a` of an element, or is its text, at the end of a path of elements. -/
inductive Xml.At : Xml → List String → Option String → String → Prop
  | attr {n a s : String} {as : List (String × String)} {ks : List Xml} (h : (a, s) ∈ as) : Xml.At (.elem n as ks) [] (some a) s
  | text {n : String} {as : List (String × String)} {ks : List Xml} : Xml.At (.elem n as ks) [] none (textOf ks)
  | inside {n m s : String} {as bs : List (String × String)} {ks ls : List Xml} {path : List String} {a : Option String}
      (hk : Xml.elem m bs ls ∈ ks) (h : Xml.At (.elem m bs ls) path a s) : Xml.At (.elem n as ks) (m :: path) a s

/-- No element, at any depth, has two attributes of the same name (which XML does not allow). -/
inductive Xml.Distinct : Xml → Prop
  | text (s : String) : Xml.Distinct (.text s)
  | elem {n : String} {as : List (String × String)} {ks : List Xml} (ha : (as.map (·.1)).Nodup)
      (hk : ∀ k ∈ ks, Xml.Distinct k) : Xml.Distinct (.elem n as ks)

end Verif
