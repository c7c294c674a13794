import Verif.Json.Structs
import Verif.Xml.Codec

/-!
# The XML codecs of the types of the library

GENERATED by `tools/gen_xml.py` from the declarations and the `xml` tags of `/repo/cyclonedx.go`, with the
types that have their own `MarshalXML` or `UnmarshalXML` (`/repo/cyclonedx_xml.go`) written out by hand in
the generator; do not edit by hand.

`X.tFields` lists the fields of a struct `T` with their tags and `X.t` is the codec.  The products of the
fields (`T.P`, `T.toP`, `T.ofP`) are those of `Verif.Json.Structs`.
-/

namespace Verif

open Xml (sanitize trim textOf textKids)

variable [XFloatIO]

set_option linter.unusedSectionVars false

/-- Go `string` and the named string types, as an element. -/
abbrev X.string : XCodec String := XCodec.simple XText.string
/-- Go `bool`, as an element. -/
abbrev X.bool : XCodec Bool := XCodec.simple XText.bool
/-- Go `int`, as an element. -/
abbrev X.int : XCodec Int := XCodec.simple XText.int
/-- Go `float32`, as an element. -/
abbrev X.f32 : XCodec F32 := XCodec.simple XText.f32
/-- Go `float64`, as an element. -/
abbrev X.f64 : XCodec F64 := XCodec.simple XText.f64

/-- A codec that fails on everything; where the approximations of a recursive codec start. -/
def X.bottom {α : Type} (zero : α) : XCodec α where
  enc _ _ := none
  dec _ _ := none
  zero := zero
  empty _ := false

/-- The codec of a recursive type out of its approximations `N 0`, `N 1`, …, where `N n` handles values
nested less than `n` deep.  A value is encoded by the approximation for its own height, an element decoded by
the one for its depth. -/
def X.knot {α : Type} (zero : α) (N : Nat → XCodec α) (height : α → Nat) : XCodec α where
  enc n a := (N (height a)).enc n a
  dec x a := (N (x.depth + 1)).dec x a
  zero := zero
  empty _ := false
  norm a := (N (height a)).norm a
  good a := (N (height a)).good a

/-- Decoding into a new variable, whatever the destination holds; the destination is then overwritten. -/
def X.fresh {α : Type} (c : XCodec α) : XCodec α := { c with dec := fun x _ => c.dec x c.zero }

/-- A loop that writes every element of a slice. -/
def X.encEach {α : Type} (f : α → Option (List Xml)) : List α → Option (List Xml)
  | [] => some []
  | a :: as =>
    match f a with
    | none => none
    | some ks => (X.encEach f as).map (ks ++ ·)

/-- A loop over the tokens of a content that appends to a slice. -/
def X.decEach {α : Type} (g : Xml → Option (List α)) : List Xml → Option (List α)
  | [] => some []
  | x :: xs =>
    match g x with
    | none => none
    | some as => (X.decEach g xs).map (as ++ ·)

/-- cyclonedx_xml.go:30-32 `bomReferenceXML` -/
def X.bomReferenceFields : XFields (String × Unit) := .attr "ref" false XText.string .nil

/-- cyclonedx_xml.go:34-45: a reference, where it is an element, is the attribute `ref`. -/
def X.bomReference : XCodec BOMReference :=
  { X.fresh (XCodec.struct X.bomReferenceFields (fun r => (r.val, ())) (fun p => ⟨p.1⟩)) with
    empty := fun r => r.val = "" }

/-- cyclonedx_xml.go:62-66 `dependencyXML`, where it is nested in another one: only the attribute is used, and
reading the rest of it cannot fail. -/
def X.dependencyRef : XCodec String :=
  XCodec.struct X.bomReferenceFields (fun r => (r, ())) (fun p => p.1)

/-- cyclonedx_xml.go:566-596, shared by the five IKEv2 types: a reference is written as text, everything else
as the struct without the reference; an element with text in which none of the fields is set is read as a
reference.  `F` lists the fields other than the reference and `isRef` says that none of them is set. -/
def X.ikev2 {σ β : Type} (F : XFields β) (toP : σ → BOMReference × β) (ofP : BOMReference × β → σ)
    (isRef : β → Bool) : XCodec σ where
  enc n v :=
    if (toP v).1.val ≠ "" then some (some (.elem n [] (textKids (sanitize (toP v).1.val))))
    else (XCodec.struct (.skip ⟨""⟩ F) toP ofP).enc n v
  dec x v :=
    match (XFields.chardata F).dec x ("", F.zero) with
    | none => none
    | some p =>
      if trim p.1 ≠ "" ∧ isRef p.2 = true then some (ofP (⟨trim p.1⟩, (toP v).2))
      else some (ofP ((toP v).1, p.2))
  zero := ofP (⟨""⟩, F.zero)
  empty _ := false
  norm v :=
    if (toP v).1.val ≠ "" then ofP (⟨trim (sanitize (toP v).1.val)⟩, F.zero)
    else ofP (⟨""⟩, F.norm (toP v).2)
  good v := (toP v).1.val = "" → F.good (toP v).2

/-- cyclonedx.go:35-38 -/
def X.advisoryFields : XFields Advisory.P :=
  .elem (.plain "title" true X.string) <|
  .elem (.plain "url" false X.string) <|
  .nil

/-- cyclonedx.go:35-38 -/
def X.advisory : XCodec Advisory := XCodec.struct X.advisoryFields Advisory.toP Advisory.ofP

/-- cyclonedx.go:40-44 -/
def X.affectedVersionsFields : XFields AffectedVersions.P :=
  .elem (.plain "version" true X.string) <|
  .elem (.plain "range" true X.string) <|
  .elem (.plain "status" false X.string) <|
  .nil

/-- cyclonedx.go:40-44 -/
def X.affectedVersions : XCodec AffectedVersions := XCodec.struct X.affectedVersionsFields AffectedVersions.toP AffectedVersions.ofP

/-- cyclonedx.go:46-49 -/
def X.affectsFields : XFields Affects.P :=
  .elem (.plain "ref" false X.string) <|
  .elem (.nlist "versions" "version" true X.affectedVersions) <|
  .nil

/-- cyclonedx.go:46-49 -/
def X.affects : XCodec Affects := XCodec.struct X.affectsFields Affects.toP Affects.ofP

/-- cyclonedx.go:73-77 -/
def X.attachedTextFields : XFields AttachedText.P :=
  .chardata <|
  .attr "content-type" true XText.string <|
  .attr "encoding" true XText.string <|
  .nil

/-- cyclonedx.go:73-77 -/
def X.attachedText : XCodec AttachedText := XCodec.struct X.attachedTextFields AttachedText.toP AttachedText.ofP

/-- cyclonedx.go:1277-1280 -/
def X.propertyFields : XFields Property.P :=
  .attr "name" false XText.string <|
  .chardata <|
  .nil

/-- cyclonedx.go:1277-1280 -/
def X.property : XCodec Property := XCodec.struct X.propertyFields Property.toP Property.ofP

/-- cyclonedx.go:290-294 -/
def X.componentDataContentsFields : XFields ComponentDataContents.P :=
  .elem (.ptr "attachment" X.attachedText) <|
  .elem (.plain "url" true X.string) <|
  .elem (.list "properties" true X.property) <|
  .nil

/-- cyclonedx.go:290-294 -/
def X.componentDataContents : XCodec ComponentDataContents := XCodec.struct X.componentDataContentsFields ComponentDataContents.toP ComponentDataContents.ofP

/-- cyclonedx.go:301-304 -/
def X.componentDataGraphicFields : XFields ComponentDataGraphic.P :=
  .elem (.plain "name" true X.string) <|
  .elem (.ptr "image" X.attachedText) <|
  .nil

/-- cyclonedx.go:301-304 -/
def X.componentDataGraphic : XCodec ComponentDataGraphic := XCodec.struct X.componentDataGraphicFields ComponentDataGraphic.toP ComponentDataGraphic.ofP

/-- cyclonedx.go:306-309 -/
def X.componentDataGraphicsFields : XFields ComponentDataGraphics.P :=
  .elem (.plain "description" true X.string) <|
  .elem (.nlist "collection" "graphic" true X.componentDataGraphic) <|
  .nil

/-- cyclonedx.go:306-309 -/
def X.componentDataGraphics : XCodec ComponentDataGraphics := XCodec.struct X.componentDataGraphicsFields ComponentDataGraphics.toP ComponentDataGraphics.ofP

/-- cyclonedx.go:1211-1216 -/
def X.organizationalContactFields : XFields OrganizationalContact.P :=
  .attr "bom-ref" true XText.string <|
  .elem (.plain "name" true X.string) <|
  .elem (.plain "email" true X.string) <|
  .elem (.plain "phone" true X.string) <|
  .nil

/-- cyclonedx.go:1211-1216 -/
def X.organizationalContact : XCodec OrganizationalContact := XCodec.struct X.organizationalContactFields OrganizationalContact.toP OrganizationalContact.ofP

/-- cyclonedx.go:1261-1269 -/
def X.postalAddressFields : XFields PostalAddress.P :=
  .attr "bom-ref" true XText.string <|
  .elem (.plain "country" true X.string) <|
  .elem (.plain "region" true X.string) <|
  .elem (.plain "locality" true X.string) <|
  .elem (.plain "postOfficeBoxNumber" true X.string) <|
  .elem (.plain "postalCode" true X.string) <|
  .elem (.plain "streetAddress" true X.string) <|
  .nil

/-- cyclonedx.go:1261-1269 -/
def X.postalAddress : XCodec PostalAddress := XCodec.struct X.postalAddressFields PostalAddress.toP PostalAddress.ofP

/-- cyclonedx.go:1218-1224 -/
def X.organizationalEntityFields : XFields OrganizationalEntity.P :=
  .attr "bom-ref" true XText.string <|
  .elem (.plain "name" false X.string) <|
  .elem (.ptr "address" X.postalAddress) <|
  .elem (.list "url" true X.string) <|
  .elem (.list "contact" true X.organizationalContact) <|
  .nil

/-- cyclonedx.go:1218-1224 -/
def X.organizationalEntity : XCodec OrganizationalEntity := XCodec.struct X.organizationalEntityFields OrganizationalEntity.toP OrganizationalEntity.ofP

/-- cyclonedx.go:296-299 -/
def X.componentDataGovernanceResponsiblePartyFields : XFields ComponentDataGovernanceResponsibleParty.P :=
  .elem (.ptr "organization" X.organizationalEntity) <|
  .elem (.ptr "contact" X.organizationalContact) <|
  .nil

/-- cyclonedx.go:296-299 -/
def X.componentDataGovernanceResponsibleParty : XCodec ComponentDataGovernanceResponsibleParty := XCodec.struct X.componentDataGovernanceResponsiblePartyFields ComponentDataGovernanceResponsibleParty.toP ComponentDataGovernanceResponsibleParty.ofP

/-- cyclonedx.go:570-574 -/
def X.dataGovernanceFields : XFields DataGovernance.P :=
  .elem (.nlist "custodians" "custodian" true X.componentDataGovernanceResponsibleParty) <|
  .elem (.nlist "stewards" "steward" true X.componentDataGovernanceResponsibleParty) <|
  .elem (.nlist "owners" "owner" true X.componentDataGovernanceResponsibleParty) <|
  .nil

/-- cyclonedx.go:570-574 -/
def X.dataGovernance : XCodec DataGovernance := XCodec.struct X.dataGovernanceFields DataGovernance.toP DataGovernance.ofP

/-- cyclonedx.go:278-288 -/
def X.componentDataFields : XFields ComponentData.P :=
  .attr "bom-ref" true XText.string <|
  .elem (.plain "type" true X.string) <|
  .elem (.plain "name" true X.string) <|
  .elem (.ptr "contents" X.componentDataContents) <|
  .elem (.plain "classification" true X.string) <|
  .elem (.list "sensitiveData" true X.string) <|
  .elem (.ptr "graphics" X.componentDataGraphics) <|
  .elem (.plain "description" true X.string) <|
  .elem (.ptr "governance" X.dataGovernance) <|
  .nil

/-- cyclonedx.go:278-288 -/
def X.componentData : XCodec ComponentData := XCodec.struct X.componentDataFields ComponentData.toP ComponentData.ofP

/-- cyclonedx.go:808-811 -/
def X.hashFields : XFields Hash.P :=
  .attr "alg" false XText.string <|
  .chardata <|
  .nil

/-- cyclonedx.go:808-811 -/
def X.hash : XCodec Hash := XCodec.struct X.hashFields Hash.toP Hash.ofP

/-- cyclonedx.go:1866-1869 -/
def X.relatedCryptographicAssetFields : XFields RelatedCryptographicAsset.P :=
  .elem (.plain "type" true X.string) <|
  .elem (.plain "ref" true X.string) <|
  .nil

/-- cyclonedx.go:1866-1869 -/
def X.relatedCryptographicAsset : XCodec RelatedCryptographicAsset := XCodec.struct X.relatedCryptographicAssetFields RelatedCryptographicAsset.toP RelatedCryptographicAsset.ofP

/-- cyclonedx_xml.go:420-423 `predefinedCertificateStateXML` -/
def X.predefinedCertificateState : XCodec PredefinedCertificateState :=
  XCodec.struct (.elem (.plain "state" false X.string) <| .elem (.plain "reason" true X.string) .nil)
    PredefinedCertificateState.toP PredefinedCertificateState.ofP

/-- cyclonedx_xml.go:425-429 `customCertificateStateXML` -/
def X.customCertificateState : XCodec CustomCertificateState :=
  XCodec.struct
    (.elem (.plain "name" false X.string) <| .elem (.plain "description" true X.string) <|
      .elem (.plain "reason" true X.string) .nil)
    CustomCertificateState.toP CustomCertificateState.ofP

/-- cyclonedx_xml.go:452-457, the variable `raw` -/
def X.certificateStateRaw : XFields (String × String × String × String × Unit) :=
  .elem (.plain "state" false X.string) <| .elem (.plain "name" false X.string) <|
    .elem (.plain "description" false X.string) <| .elem (.plain "reason" false X.string) .nil

/-- cyclonedx_xml.go:431-474 -/
def X.certificateState : XCodec CertificateState where
  enc n cs :=
    match cs.predefined, cs.custom with
    | some _, some _ => none
    | some p, none => X.predefinedCertificateState.enc n p
    | none, some c => X.customCertificateState.enc n c
    | none, none => some none
  dec x cs :=
    match X.certificateStateRaw.dec x X.certificateStateRaw.zero with
    | none => none
    | some (state, name, description, reason, ()) =>
      if state ≠ "" then some { cs with predefined := some { state := state, reason := reason } }
      else some { cs with custom := some { name := name, description := description, reason := reason } }
  zero := {}
  empty _ := false
  writes cs := cs.predefined.isSome || cs.custom.isSome
  norm cs :=
    match cs.predefined, cs.custom with
    | some p, _ =>
      if p.state ≠ "" then { predefined := some { state := sanitize p.state, reason := sanitize p.reason } }
      else { custom := some { name := "", description := "", reason := sanitize p.reason } }
    | none, some c =>
      { custom := some { name := sanitize c.name, description := sanitize c.description, reason := sanitize c.reason } }
    | none, none => {}

/-- cyclonedx_xml.go:476-479 `commonCertificateExtensionXML` -/
def X.commonCertificateExtension : XCodec CommonCertificateExtension :=
  XCodec.struct (.elem (.plain "commonExtensionName" false X.string) <|
      .elem (.plain "commonExtensionValue" true X.string) .nil)
    CommonCertificateExtension.toP CommonCertificateExtension.ofP

/-- cyclonedx_xml.go:481-484 `customCertificateExtensionXML` -/
def X.customCertificateExtension : XCodec CustomCertificateExtension :=
  XCodec.struct (.elem (.plain "customExtensionName" false X.string) <|
      .elem (.plain "customExtensionValue" true X.string) .nil)
    CustomCertificateExtension.toP CustomCertificateExtension.ofP

/-- cyclonedx_xml.go:506-511, the variable `raw` -/
def X.certificateExtensionRaw : XFields (String × String × String × String × Unit) :=
  .elem (.plain "commonExtensionName" false X.string) <| .elem (.plain "commonExtensionValue" false X.string) <|
    .elem (.plain "customExtensionName" false X.string) <| .elem (.plain "customExtensionValue" false X.string) .nil

/-- cyclonedx_xml.go:486-527 -/
def X.certificateExtension : XCodec CertificateExtension where
  enc n ce :=
    match ce.common, ce.custom with
    | some _, some _ => none
    | some p, none => X.commonCertificateExtension.enc n p
    | none, some c => X.customCertificateExtension.enc n c
    | none, none => some none
  dec x ce :=
    match X.certificateExtensionRaw.dec x X.certificateExtensionRaw.zero with
    | none => none
    | some (name, value, name', value', ()) =>
      if name ≠ "" then some { ce with common := some { name := name, value := value } }
      else some { ce with custom := some { name := name', value := value' } }
  zero := {}
  empty _ := false
  writes ce := ce.common.isSome || ce.custom.isSome
  norm ce :=
    match ce.common, ce.custom with
    | some p, _ =>
      if p.name ≠ "" then { common := some { name := sanitize p.name, value := sanitize p.value } }
      else { custom := some { name := "", value := "" } }
    | none, some c => { custom := some { name := sanitize c.name, value := sanitize c.value } }
    | none, none => {}

/-- cyclonedx.go:171-191 -/
def X.certificatePropertiesFields : XFields CertificateProperties.P :=
  .elem (.plain "serialNumber" true X.string) <|
  .elem (.plain "subjectName" true X.string) <|
  .elem (.plain "issuerName" true X.string) <|
  .elem (.plain "notValidBefore" true X.string) <|
  .elem (.plain "notValidAfter" true X.string) <|
  .elem (.plain "signatureAlgorithmRef" true X.bomReference) <|
  .elem (.plain "subjectPublicKeyRef" true X.bomReference) <|
  .elem (.plain "certificateFormat" true X.string) <|
  .elem (.plain "certificateExtension" true X.string) <|
  .elem (.plain "certificateFileExtension" true X.string) <|
  .elem (.ptr "fingerprint" X.hash) <|
  .elem (.list "certificateState" true X.certificateState) <|
  .elem (.nlist "certificateExtensions" "certificateExtension" true X.certificateExtension) <|
  .elem (.nlist "relatedCryptographicAssets" "relatedCryptographicAsset" true X.relatedCryptographicAsset) <|
  .elem (.plain "creationDate" true X.string) <|
  .elem (.plain "activationDate" true X.string) <|
  .elem (.plain "deactivationDate" true X.string) <|
  .elem (.plain "revocationDate" true X.string) <|
  .elem (.plain "destructionDate" true X.string) <|
  .nil

/-- cyclonedx.go:171-191 -/
def X.certificateProperties : XCodec CertificateProperties := XCodec.struct X.certificatePropertiesFields CertificateProperties.toP CertificateProperties.ofP

/-- cyclonedx.go:368-382 -/
def X.cryptoAlgorithmPropertiesFields : XFields CryptoAlgorithmProperties.P :=
  .elem (.plain "primitive" true X.string) <|
  .elem (.plain "parameterSetIdentifier" true X.string) <|
  .elem (.plain "algorithmFamily" true X.string) <|
  .elem (.plain "curve" true X.string) <|
  .elem (.plain "ellipticCurve" true X.string) <|
  .elem (.plain "executionEnvironment" true X.string) <|
  .elem (.plain "implementationPlatform" true X.string) <|
  .elem (.list "certificationLevel" true X.string) <|
  .elem (.plain "mode" true X.string) <|
  .elem (.plain "padding" true X.string) <|
  .elem (.nlist "cryptoFunctions" "cryptoFunction" true X.string) <|
  .elem (.ptr "classicalSecurityLevel" X.int) <|
  .elem (.ptr "nistQuantumSecurityLevel" X.int) <|
  .nil

/-- cyclonedx.go:368-382 -/
def X.cryptoAlgorithmProperties : XCodec CryptoAlgorithmProperties := XCodec.struct X.cryptoAlgorithmPropertiesFields CryptoAlgorithmProperties.toP CryptoAlgorithmProperties.ofP

/-- cyclonedx.go:205-211 -/
def X.cipherSuiteFields : XFields CipherSuite.P :=
  .elem (.plain "name" true X.string) <|
  .elem (.list "algorithms" true X.bomReference) <|
  .elem (.list "identifiers" true X.string) <|
  .elem (.nlist "tlsGroups" "group" true X.string) <|
  .elem (.nlist "tlsSignatureSchemes" "signatureScheme" true X.string) <|
  .nil

/-- cyclonedx.go:205-211 -/
def X.cipherSuite : XCodec CipherSuite := XCodec.struct X.cipherSuiteFields CipherSuite.toP CipherSuite.ofP

/-- cyclonedx.go:1826-1830, the fields other than the reference. -/
def X.ikev2AuthFields : XFields (String × String × Unit) :=
  .elem (.plain "name" true X.string) <|
  .elem (.plain "algorithm" true X.string) <|
  .nil

/-- cyclonedx.go:1826-1830, cyclonedx_xml.go:566-596 -/
def X.ikev2Auth : XCodec IKEv2Auth :=
  X.ikev2 X.ikev2AuthFields IKEv2Auth.toP IKEv2Auth.ofP (fun p => p.1 = "" ∧ p.2.1 = "")

/-- cyclonedx.go:1834-1839, the fields other than the reference. -/
def X.ikev2EncFields : XFields (String × Option Int × String × Unit) :=
  .elem (.plain "name" true X.string) <|
  .elem (.ptr "keyLength" X.int) <|
  .elem (.plain "algorithm" true X.string) <|
  .nil

/-- cyclonedx.go:1834-1839, cyclonedx_xml.go:598-630 -/
def X.ikev2Enc : XCodec IKEv2Enc :=
  X.ikev2 X.ikev2EncFields IKEv2Enc.toP IKEv2Enc.ofP (fun p => p.1 = "" ∧ p.2.2.1 = "" ∧ p.2.1.isNone)

/-- cyclonedx.go:1843-1847, the fields other than the reference. -/
def X.ikev2IntegFields : XFields (String × String × Unit) :=
  .elem (.plain "name" true X.string) <|
  .elem (.plain "algorithm" true X.string) <|
  .nil

/-- cyclonedx.go:1843-1847, cyclonedx_xml.go:632-662 -/
def X.ikev2Integ : XCodec IKEv2Integ :=
  X.ikev2 X.ikev2IntegFields IKEv2Integ.toP IKEv2Integ.ofP (fun p => p.1 = "" ∧ p.2.1 = "")

/-- cyclonedx.go:1851-1855, the fields other than the reference. -/
def X.ikev2KeFields : XFields (Option Int × String × Unit) :=
  .elem (.ptr "group" X.int) <|
  .elem (.plain "algorithm" true X.string) <|
  .nil

/-- cyclonedx.go:1851-1855, cyclonedx_xml.go:664-694 -/
def X.ikev2Ke : XCodec IKEv2Ke :=
  X.ikev2 X.ikev2KeFields IKEv2Ke.toP IKEv2Ke.ofP (fun p => p.2.1 = "" ∧ p.1.isNone)

/-- cyclonedx.go:1859-1863, the fields other than the reference. -/
def X.ikev2PrfFields : XFields (String × String × Unit) :=
  .elem (.plain "name" true X.string) <|
  .elem (.plain "algorithm" true X.string) <|
  .nil

/-- cyclonedx.go:1859-1863, cyclonedx_xml.go:696-726 -/
def X.ikev2Prf : XCodec IKEv2Prf :=
  X.ikev2 X.ikev2PrfFields IKEv2Prf.toP IKEv2Prf.ofP (fun p => p.1 = "" ∧ p.2.1 = "")

/-- cyclonedx.go:537-544 -/
def X.ikev2TransformTypesFields : XFields IKEv2TransformTypes.P :=
  .elem (.list "encr" true X.ikev2Enc) <|
  .elem (.list "prf" true X.ikev2Prf) <|
  .elem (.list "integ" true X.ikev2Integ) <|
  .elem (.list "ke" true X.ikev2Ke) <|
  .elem (.plain "esn" false X.bool) <|
  .elem (.list "auth" true X.ikev2Auth) <|
  .nil

/-- cyclonedx.go:537-544 -/
def X.ikev2TransformTypes : XCodec IKEv2TransformTypes := XCodec.struct X.ikev2TransformTypesFields IKEv2TransformTypes.toP IKEv2TransformTypes.ofP

/-- cyclonedx.go:509-516 -/
def X.cryptoProtocolPropertiesFields : XFields CryptoProtocolProperties.P :=
  .elem (.plain "type" true X.string) <|
  .elem (.plain "version" true X.string) <|
  .elem (.list "cipherSuites" true X.cipherSuite) <|
  .elem (.ptr "ikev2TransformTypes" X.ikev2TransformTypes) <|
  .elem (.list "cryptoRefArray" true X.bomReference) <|
  .elem (.nlist "relatedCryptographicAssets" "relatedCryptographicAsset" true X.relatedCryptographicAsset) <|
  .nil

/-- cyclonedx.go:509-516 -/
def X.cryptoProtocolProperties : XCodec CryptoProtocolProperties := XCodec.struct X.cryptoProtocolPropertiesFields CryptoProtocolProperties.toP CryptoProtocolProperties.ofP

/-- cyclonedx.go:546-549 -/
def X.securedByFields : XFields SecuredBy.P :=
  .elem (.plain "mechanism" true X.string) <|
  .elem (.plain "algorithmRef" true X.bomReference) <|
  .nil

/-- cyclonedx.go:546-549 -/
def X.securedBy : XCodec SecuredBy := XCodec.struct X.securedByFields SecuredBy.toP SecuredBy.ofP

/-- cyclonedx.go:1282-1297 -/
def X.relatedCryptoMaterialPropertiesFields : XFields RelatedCryptoMaterialProperties.P :=
  .elem (.plain "type" true X.string) <|
  .elem (.plain "id" true X.string) <|
  .elem (.plain "state" true X.string) <|
  .elem (.plain "algorithmRef" true X.bomReference) <|
  .elem (.plain "creationDate" true X.string) <|
  .elem (.plain "activationDate" true X.string) <|
  .elem (.plain "updateDate" true X.string) <|
  .elem (.plain "expirationDate" true X.string) <|
  .elem (.plain "value" true X.string) <|
  .elem (.ptr "size" X.int) <|
  .elem (.plain "format" true X.string) <|
  .elem (.ptr "securedBy" X.securedBy) <|
  .elem (.ptr "fingerprint" X.hash) <|
  .elem (.nlist "relatedCryptographicAssets" "relatedCryptographicAsset" true X.relatedCryptographicAsset) <|
  .nil

/-- cyclonedx.go:1282-1297 -/
def X.relatedCryptoMaterialProperties : XCodec RelatedCryptoMaterialProperties := XCodec.struct X.relatedCryptoMaterialPropertiesFields RelatedCryptoMaterialProperties.toP RelatedCryptoMaterialProperties.ofP

/-- cyclonedx.go:500-507 -/
def X.cryptoPropertiesFields : XFields CryptoProperties.P :=
  .elem (.plain "assetType" false X.string) <|
  .elem (.ptr "algorithmProperties" X.cryptoAlgorithmProperties) <|
  .elem (.ptr "certificateProperties" X.certificateProperties) <|
  .elem (.ptr "relatedCryptoMaterialProperties" X.relatedCryptoMaterialProperties) <|
  .elem (.ptr "protocolProperties" X.cryptoProtocolProperties) <|
  .elem (.plain "oid" true X.string) <|
  .nil

/-- cyclonedx.go:500-507 -/
def X.cryptoProperties : XCodec CryptoProperties := XCodec.struct X.cryptoPropertiesFields CryptoProperties.toP CryptoProperties.ofP

/-- cyclonedx.go:161-169 -/
def X.callstackFrameFields : XFields CallstackFrame.P :=
  .elem (.plain "package" true X.string) <|
  .elem (.plain "module" true X.string) <|
  .elem (.plain "function" true X.string) <|
  .elem (.nlist "parameters" "parameter" true X.string) <|
  .elem (.ptr "line" X.int) <|
  .elem (.ptr "column" X.int) <|
  .elem (.plain "fullFilename" true X.string) <|
  .nil

/-- cyclonedx.go:161-169 -/
def X.callstackFrame : XCodec CallstackFrame := XCodec.struct X.callstackFrameFields CallstackFrame.toP CallstackFrame.ofP

/-- cyclonedx.go:157-159 -/
def X.callstackFields : XFields Callstack.P :=
  .elem (.nlist "frames" "frame" true X.callstackFrame) <|
  .nil

/-- cyclonedx.go:157-159 -/
def X.callstack : XCodec Callstack := XCodec.struct X.callstackFields Callstack.toP Callstack.ofP

/-- cyclonedx_xml.go:47-58 -/
def X.copyright : XCodec Copyright where
  enc n c := X.string.enc n c.text
  dec x c := (X.string.dec x "").map fun t => { c with text := t }
  zero := {}
  empty _ := false
  norm c := { text := sanitize c.text }

/-- cyclonedx.go:710-714 -/
def X.evidenceIdentityMethodFields : XFields EvidenceIdentityMethod.P :=
  .elem (.plain "technique" true X.string) <|
  .elem (.ptr "confidence" X.f32) <|
  .elem (.plain "value" true X.string) <|
  .nil

/-- cyclonedx.go:710-714 -/
def X.evidenceIdentityMethod : XCodec EvidenceIdentityMethod := XCodec.struct X.evidenceIdentityMethodFields EvidenceIdentityMethod.toP EvidenceIdentityMethod.ofP

/-- cyclonedx.go:688-694 -/
def X.evidenceIdentityFields : XFields EvidenceIdentity.P :=
  .elem (.plain "field" true X.string) <|
  .elem (.ptr "confidence" X.f32) <|
  .elem (.plain "concludedValue" true X.string) <|
  .elem (.nlist "methods" "method" true X.evidenceIdentityMethod) <|
  .elem (.nlist "tools" "tool" true X.bomReference) <|
  .nil

/-- cyclonedx.go:688-694 -/
def X.evidenceIdentity : XCodec EvidenceIdentity := XCodec.struct X.evidenceIdentityFields EvidenceIdentity.toP EvidenceIdentity.ofP

/-- cyclonedx.go:731-738 -/
def X.evidenceOccurrenceFields : XFields EvidenceOccurrence.P :=
  .attr "bom-ref" true XText.string <|
  .elem (.plain "location" true X.string) <|
  .attrPtr "line" XText.int <|
  .attrPtr "offset" XText.int <|
  .attr "symbol" true XText.string <|
  .attr "additionalContext" true XText.string <|
  .nil

/-- cyclonedx.go:731-738 -/
def X.evidenceOccurrence : XCodec EvidenceOccurrence := XCodec.struct X.evidenceOccurrenceFields EvidenceOccurrence.toP EvidenceOccurrence.ofP

/-- cyclonedx.go:1226-1229 -/
def X.organizationalEntityOrContactFields : XFields OrganizationalEntityOrContact.P :=
  .elem (.ptr "organization" X.organizationalEntity) <|
  .elem (.ptr "individual" X.organizationalContact) <|
  .nil

/-- cyclonedx.go:1226-1229 -/
def X.organizationalEntityOrContact : XCodec OrganizationalEntityOrContact := XCodec.struct X.organizationalEntityOrContactFields OrganizationalEntityOrContact.toP OrganizationalEntityOrContact.ofP

/-- cyclonedx.go:995-1004 -/
def X.licensingFields : XFields Licensing.P :=
  .elem (.nlist "altIds" "altId" true X.string) <|
  .elem (.ptr "licensor" X.organizationalEntityOrContact) <|
  .elem (.ptr "licensee" X.organizationalEntityOrContact) <|
  .elem (.ptr "purchaser" X.organizationalEntityOrContact) <|
  .elem (.plain "purchaseOrder" true X.string) <|
  .elem (.nlist "licenseTypes" "licenseType" true X.string) <|
  .elem (.plain "lastRenewal" true X.string) <|
  .elem (.plain "expiration" true X.string) <|
  .nil

/-- cyclonedx.go:995-1004 -/
def X.licensing : XCodec Licensing := XCodec.struct X.licensingFields Licensing.toP Licensing.ofP

/-- cyclonedx.go:936-945 -/
def X.licenseFields : XFields License.P :=
  .attr "bom-ref" true XText.string <|
  .elem (.plain "id" true X.string) <|
  .elem (.plain "name" true X.string) <|
  .attr "acknowledgement" true XText.string <|
  .elem (.ptr "text" X.attachedText) <|
  .elem (.plain "url" true X.string) <|
  .elem (.ptr "licensing" X.licensing) <|
  .elem (.nlist "properties" "property" true X.property) <|
  .nil

/-- cyclonedx.go:936-945 without the `MarshalXML` method (the local type `Alias`). -/
def X.licenseAlias : XCodec License := XCodec.struct X.licenseFields License.toP License.ofP

/-- cyclonedx_xml.go:188-197: a license needs exactly one of id and name to be written; reading does not
check that. -/
def X.license : XCodec License :=
  { X.licenseAlias with
    enc := fun n l =>
      if l.id ≠ "" ∧ l.name ≠ "" then none
      else if l.id = "" ∧ l.name = "" then none
      else X.licenseAlias.enc n l }

/-- cyclonedx_xml.go:215-219 `licenseExpressionDetailXML`, which leaves out the `bom-ref` of the detail -/
def X.licenseExpressionDetailFields : XFields (String × Option AttachedText × String × Unit) :=
  .attr "license-identifier" false XText.string <| .elem (.ptr "text" X.attachedText) <|
    .elem (.plain "url" true X.string) .nil

/-- cyclonedx_xml.go:251-257 and 320-327 -/
def X.licenseExpressionDetail : XCodec LicenseExpressionDetail :=
  XCodec.struct X.licenseExpressionDetailFields (fun d => (d.licenseIdentifier, d.text, d.url, ()))
    (fun p => { licenseIdentifier := p.1, text := p.2.1, url := p.2.2.1 })

/-- cyclonedx_xml.go:201-205 `licenseExpressionXML` -/
def X.licenseExpressionFields : XFields (String × String × String × Unit) :=
  .chardata <| .attr "acknowledgement" true XText.string <| .attr "bom-ref" true XText.string .nil

/-- cyclonedx_xml.go:208-213 `licenseExpressionDetailedXML` -/
def X.licenseExpressionDetailedFields : XFields (String × String × String × PSlice LicenseExpressionDetail × Unit) :=
  .attr "expression" false XText.string <| .attr "acknowledgement" true XText.string <|
    .attr "bom-ref" true XText.string <| .elem (.list "details" false X.licenseExpressionDetail) .nil

/-- cyclonedx_xml.go:297-305: the choice an expression is read as. -/
def X.expressionChoice (expression ack ref : String) (details : PSlice LicenseExpressionDetail) : LicenseChoice :=
  { expression := expression, bomRef := ref, acknowledgement := if ack ≠ "" then some ack else none,
    expressionDetails := details }

/-- cyclonedx_xml.go:230-272, the body of the loop. -/
def X.licenseChoiceEnc (choice : LicenseChoice) : Option (List Xml) :=
  match choice.license with
  | some l => if choice.expression ≠ "" then none else (X.license.enc "license" l).map (·.toList)
  | none =>
    if choice.expression ≠ "" then
      if choice.expressionDetails.isNil then
        ((XCodec.struct X.licenseExpressionFields id id).enc "expression"
          (choice.expression, choice.acknowledgement.getD "", choice.bomRef, ())).map (·.toList)
      else
        ((XCodec.struct X.licenseExpressionDetailedFields id id).enc "expression-detailed"
          (choice.expression, choice.acknowledgement.getD "", choice.bomRef, choice.expressionDetails, ())).map (·.toList)
    else some []

/-- cyclonedx_xml.go:289-340, the body of the loop. -/
def X.licenseChoiceDec : Xml → Option (List LicenseChoice)
  | .text _ => some []
  | .elem name as ks =>
    if name = "expression" then
      (X.licenseExpressionFields.dec (.elem name as ks) X.licenseExpressionFields.zero).map fun p =>
        [X.expressionChoice p.1 p.2.1 p.2.2.1 .nil]
    else if name = "expression-detailed" then
      (X.licenseExpressionDetailedFields.dec (.elem name as ks) X.licenseExpressionDetailedFields.zero).map fun p =>
        [X.expressionChoice p.1 p.2.1 p.2.2.1 p.2.2.2.1]
    else if name = "license" then
      (X.license.dec (.elem name as ks) X.license.zero).map fun l => [{ license := some l }]
    else none

/-- What a choice is read back as. -/
def X.licenseChoiceNorm (choice : LicenseChoice) : List LicenseChoice :=
  match choice.license with
  | some l => [{ license := some (X.license.norm l) }]
  | none =>
    if choice.expression ≠ "" then
      [X.expressionChoice (sanitize choice.expression) (sanitize (choice.acknowledgement.getD ""))
        (sanitize choice.bomRef) (XField.ofList (XField.normList false X.licenseExpressionDetail choice.expressionDetails.elems))]
    else []

/-- cyclonedx_xml.go:221-342 -/
def X.licenses : XCodec (List LicenseChoice) where
  enc n ls :=
    match ls with
    | [] => some none
    | ls => (X.encEach X.licenseChoiceEnc ls).map fun ks => some (.elem n [] ks)
  dec x _ := X.decEach X.licenseChoiceDec x.kids
  zero := []
  empty ls := ls.isEmpty
  writes ls := !ls.isEmpty
  norm ls := ls.flatMap X.licenseChoiceNorm
  good ls := ∀ l ∈ ls, ∀ m ∈ l.license, X.license.good m

/-- cyclonedx_xml.go:835-841 `EvidenceMarshalXML` -/
def X.evidenceFields : XFields (PSlice EvidenceIdentity × PSlice EvidenceOccurrence × Option Callstack ×
    PSlice LicenseChoice × PSlice Copyright × Unit) :=
  .elem (.list "identity" true X.evidenceIdentity) <|
  .elem (.nlist "occurrences" "occurrence" true X.evidenceOccurrence) <|
  .elem (.ptr "callstack" X.callstack) <|
  .elem (.slice "licenses" X.licenses) <|
  .elem (.nlist "copyright" "text" true X.copyright) <|
  .nil

/-- cyclonedx_xml.go:846-849 `EvidenceUnmarshalXML` -/
def X.evidenceRaw : XFields (PSlice EvidenceOccurrence × PSlice Copyright × Unit) :=
  .elem (.list "occurrence" true X.evidenceOccurrence) <|
  .elem (.list "text" true X.copyright) <|
  .nil

/-- cyclonedx_xml.go:854-861: what is written for the identity. -/
def X.evidenceIdentities (ev : Evidence) : PSlice EvidenceIdentity :=
  match ev.identity with
  | none => .nil
  | some c =>
    if ¬ c.identities.isNil then c.identities
    else match c.identity with
      | some i => .list [i]
      | none => .nil

/-- cyclonedx_xml.go:899-944, the body of the loop; the identities are collected separately. -/
def X.evidenceStep (x : Xml) (st : List EvidenceIdentity × Evidence) : Option (List EvidenceIdentity × Evidence) :=
  match x with
  | .text _ => some st
  | .elem name as ks =>
    if name = "identity" then
      (X.evidenceIdentity.dec (.elem name as ks) X.evidenceIdentity.zero).map fun i => (st.1 ++ [i], st.2)
    else if name = "occurrences" then
      (X.evidenceRaw.dec (.elem name as ks) X.evidenceRaw.zero).map fun p =>
        if ¬ p.1.isNil then (st.1, { st.2 with occurrences := p.1 }) else st
    else if name = "callstack" then
      (X.callstack.dec (.elem name as ks) X.callstack.zero).map fun c =>
        if ¬ c.frames.isNil then (st.1, { st.2 with callstack := some c }) else st
    else if name = "licenses" then
      (X.licenses.dec (.elem name as ks) X.licenses.zero).map fun ls =>
        if ls ≠ [] then (st.1, { st.2 with licenses := .list ls }) else st
    else if name = "copyright" then
      (X.evidenceRaw.dec (.elem name as ks) X.evidenceRaw.zero).map fun p =>
        if ¬ p.2.1.isNil then (st.1, { st.2 with copyright := p.2.1 }) else st
    else none

/-- A call stack without frames is not read. -/
def X.callstackNorm : Option Callstack → Option Callstack
  | some c => if ¬ (X.callstack.norm c).frames.isNil then some (X.callstack.norm c) else none
  | none => none

/-- cyclonedx_xml.go:851-952 -/
def X.evidence : XCodec Evidence where
  enc n ev :=
    if ev.identity.isNone ∧ ev.occurrences.isNil ∧ ev.callstack.isNone ∧ ev.licenses.isNil ∧ ev.copyright.isNil then
      some none
    else
      (XCodec.struct X.evidenceFields id id).enc n
        (X.evidenceIdentities ev, ev.occurrences, ev.callstack, ev.licenses, ev.copyright, ())
  dec x _ :=
    (XField.decAll X.evidenceStep x.kids ([], {})).map fun st =>
      if st.1 ≠ [] then { st.2 with identity := some { identities := .list st.1 } } else st.2
  zero := {}
  empty _ := false
  writes ev :=
    !(ev.identity.isNone && ev.occurrences.isNil && ev.callstack.isNone && ev.licenses.isNil && ev.copyright.isNil)
  norm ev :=
    { identity :=
        match XField.normList true X.evidenceIdentity (X.evidenceIdentities ev).elems with
        | [] => none
        | is => some { identities := .list is }
      occurrences := XField.ofList (XField.normList true X.evidenceOccurrence ev.occurrences.elems)
      callstack := X.callstackNorm ev.callstack
      licenses := XField.ofList (X.licenses.norm ev.licenses.elems)
      copyright := XField.ofList (XField.normList true X.copyright ev.copyright.elems) }
  good ev :=
    X.evidenceFields.good (X.evidenceIdentities ev, ev.occurrences, ev.callstack, ev.licenses, ev.copyright, ())

/-- cyclonedx.go:740-746 -/
def X.externalReferenceFields : XFields ExternalReference.P :=
  .elem (.plain "url" false X.string) <|
  .elem (.plain "comment" true X.string) <|
  .elem (.nlist "hashes" "hash" true X.hash) <|
  .attr "type" false XText.string <|
  .elem (.nlist "properties" "property" true X.property) <|
  .nil

/-- cyclonedx.go:740-746 -/
def X.externalReference : XCodec ExternalReference := XCodec.struct X.externalReferenceFields ExternalReference.toP ExternalReference.ofP

/-- cyclonedx.go:1099-1102 -/
def X.mlModelCO2MeasureFields : XFields MLModelCO2Measure.P :=
  .elem (.plain "value" false X.f32) <|
  .elem (.plain "unit" false X.string) <|
  .nil

/-- cyclonedx.go:1099-1102 -/
def X.mlModelCO2Measure : XCodec MLModelCO2Measure := XCodec.struct X.mlModelCO2MeasureFields MLModelCO2Measure.toP MLModelCO2Measure.ofP

/-- cyclonedx.go:1131-1134 -/
def X.mlModelEnergyMeasureFields : XFields MLModelEnergyMeasure.P :=
  .elem (.plain "value" false X.f32) <|
  .elem (.plain "unit" false X.string) <|
  .nil

/-- cyclonedx.go:1131-1134 -/
def X.mlModelEnergyMeasure : XCodec MLModelEnergyMeasure := XCodec.struct X.mlModelEnergyMeasureFields MLModelEnergyMeasure.toP MLModelEnergyMeasure.ofP

/-- cyclonedx.go:1136-1143 -/
def X.mlModelEnergyProviderFields : XFields MLModelEnergyProvider.P :=
  .attr "bom-ref" true XText.string <|
  .elem (.plain "description" true X.string) <|
  .elem (.ptr "organization" X.organizationalEntity) <|
  .elem (.plain "energySource" false X.string) <|
  .elem (.ptr "energyProvided" X.mlModelEnergyMeasure) <|
  .elem (.nlist "externalReferences" "reference" true X.externalReference) <|
  .nil

/-- cyclonedx.go:1136-1143 -/
def X.mlModelEnergyProvider : XCodec MLModelEnergyProvider := XCodec.struct X.mlModelEnergyProviderFields MLModelEnergyProvider.toP MLModelEnergyProvider.ofP

/-- cyclonedx.go:1108-1115 -/
def X.mlModelEnergyConsumptionFields : XFields MLModelEnergyConsumption.P :=
  .elem (.plain "activity" false X.string) <|
  .elem (.list "energyProviders" false X.mlModelEnergyProvider) <|
  .elem (.plain "activityEnergyCost" false X.mlModelEnergyMeasure) <|
  .elem (.ptr "co2CostEquivalent" X.mlModelCO2Measure) <|
  .elem (.ptr "co2CostOffset" X.mlModelCO2Measure) <|
  .elem (.nlist "properties" "property" true X.property) <|
  .nil

/-- cyclonedx.go:1108-1115 -/
def X.mlModelEnergyConsumption : XCodec MLModelEnergyConsumption := XCodec.struct X.mlModelEnergyConsumptionFields MLModelEnergyConsumption.toP MLModelEnergyConsumption.ofP

/-- cyclonedx.go:1082-1085 -/
def X.mlModelCardEnvironmentalConsiderationsFields : XFields MLModelCardEnvironmentalConsiderations.P :=
  .elem (.nlist "energyConsumptions" "energyConsumption" true X.mlModelEnergyConsumption) <|
  .elem (.nlist "properties" "property" true X.property) <|
  .nil

/-- cyclonedx.go:1082-1085 -/
def X.mlModelCardEnvironmentalConsiderations : XCodec MLModelCardEnvironmentalConsiderations := XCodec.struct X.mlModelCardEnvironmentalConsiderationsFields MLModelCardEnvironmentalConsiderations.toP MLModelCardEnvironmentalConsiderations.ofP

/-- cyclonedx.go:1087-1090 -/
def X.mlModelCardEthicalConsiderationFields : XFields MLModelCardEthicalConsideration.P :=
  .elem (.plain "name" true X.string) <|
  .elem (.plain "mitigationStrategy" true X.string) <|
  .nil

/-- cyclonedx.go:1087-1090 -/
def X.mlModelCardEthicalConsideration : XCodec MLModelCardEthicalConsideration := XCodec.struct X.mlModelCardEthicalConsiderationFields MLModelCardEthicalConsideration.toP MLModelCardEthicalConsideration.ofP

/-- cyclonedx.go:1092-1097 -/
def X.mlModelCardFairnessAssessmentFields : XFields MLModelCardFairnessAssessment.P :=
  .elem (.plain "groupAtRisk" true X.string) <|
  .elem (.plain "benefits" true X.string) <|
  .elem (.plain "harms" true X.string) <|
  .elem (.plain "mitigationStrategy" true X.string) <|
  .nil

/-- cyclonedx.go:1092-1097 -/
def X.mlModelCardFairnessAssessment : XCodec MLModelCardFairnessAssessment := XCodec.struct X.mlModelCardFairnessAssessmentFields MLModelCardFairnessAssessment.toP MLModelCardFairnessAssessment.ofP

/-- cyclonedx.go:1072-1080 -/
def X.mlModelCardConsiderationsFields : XFields MLModelCardConsiderations.P :=
  .elem (.nlist "users" "user" true X.string) <|
  .elem (.nlist "useCases" "useCase" true X.string) <|
  .elem (.nlist "technicalLimitations" "technicalLimitation" true X.string) <|
  .elem (.nlist "performanceTradeoffs" "performanceTradeoff" true X.string) <|
  .elem (.nlist "ethicalConsiderations" "ethicalConsideration" true X.mlModelCardEthicalConsideration) <|
  .elem (.ptr "environmentalConsiderations" X.mlModelCardEnvironmentalConsiderations) <|
  .elem (.nlist "fairnessAssessments" "fairnessAssessment" true X.mlModelCardFairnessAssessment) <|
  .nil

/-- cyclonedx.go:1072-1080 -/
def X.mlModelCardConsiderations : XCodec MLModelCardConsiderations := XCodec.struct X.mlModelCardConsiderationsFields MLModelCardConsiderations.toP MLModelCardConsiderations.ofP

/-- cyclonedx_xml.go:347-349 `mlDatasetChoiceRefXML` -/
def X.mlDatasetChoiceRef : XCodec String :=
  XCodec.struct (.elem (.plain "ref" false X.string) .nil) (fun s => (s, ())) (fun p => p.1)

/-- cyclonedx_xml.go:351-354 `mlDatasetChoiceXML`: the fields of the embedded struct are its own -/
def X.mlDatasetChoiceFields : XFields (String × ComponentData.P) :=
  .elem (.plain "ref" false X.string) X.componentDataFields

/-- cyclonedx_xml.go:356-383 -/
def X.mlDatasetChoice : XCodec MLDatasetChoice where
  enc n dc :=
    if dc.ref ≠ "" then X.mlDatasetChoiceRef.enc n dc.ref
    else match dc.componentData with
      | some d => X.componentData.enc n d
      | none => some none
  dec x dc :=
    match X.mlDatasetChoiceFields.dec x X.mlDatasetChoiceFields.zero with
    | none => none
    | some p =>
      if p.1 ≠ "" then some { dc with ref := p.1 }
      else if ¬ (ComponentData.ofP p.2).isZero then some { dc with componentData := some (ComponentData.ofP p.2) }
      else some dc
  zero := {}
  empty _ := false
  writes dc := dc.ref ≠ "" || dc.componentData.isSome
  norm dc :=
    if dc.ref ≠ "" then { ref := sanitize dc.ref }
    else match dc.componentData with
      | some d => if ¬ (X.componentData.norm d).isZero then { componentData := some (X.componentData.norm d) } else {}
      | none => {}
  good dc := dc.ref = "" → ∀ d ∈ dc.componentData, X.componentData.good d

/-- cyclonedx.go:1061-1063 -/
def X.mlInputOutputParametersFields : XFields MLInputOutputParameters.P :=
  .elem (.plain "format" true X.string) <|
  .nil

/-- cyclonedx.go:1061-1063 -/
def X.mlInputOutputParameters : XCodec MLInputOutputParameters := XCodec.struct X.mlInputOutputParametersFields MLInputOutputParameters.toP MLInputOutputParameters.ofP

/-- cyclonedx.go:1175-1177 -/
def X.mlModelParametersApproachFields : XFields MLModelParametersApproach.P :=
  .elem (.plain "type" true X.string) <|
  .nil

/-- cyclonedx.go:1175-1177 -/
def X.mlModelParametersApproach : XCodec MLModelParametersApproach := XCodec.struct X.mlModelParametersApproachFields MLModelParametersApproach.toP MLModelParametersApproach.ofP

/-- cyclonedx.go:1165-1173 -/
def X.mlModelParametersFields : XFields MLModelParameters.P :=
  .elem (.ptr "approach" X.mlModelParametersApproach) <|
  .elem (.plain "task" true X.string) <|
  .elem (.plain "architectureFamily" true X.string) <|
  .elem (.plain "modelArchitecture" true X.string) <|
  .elem (.nlist "datasets" "dataset" true X.mlDatasetChoice) <|
  .elem (.nlist "inputs" "input" true X.mlInputOutputParameters) <|
  .elem (.nlist "outputs" "output" true X.mlInputOutputParameters) <|
  .nil

/-- cyclonedx.go:1165-1173 -/
def X.mlModelParameters : XCodec MLModelParameters := XCodec.struct X.mlModelParametersFields MLModelParameters.toP MLModelParameters.ofP

/-- cyclonedx.go:1201-1204 -/
def X.mlPerformanceMetricConfidenceIntervalFields : XFields MLPerformanceMetricConfidenceInterval.P :=
  .elem (.plain "lowerBound" true X.string) <|
  .elem (.plain "upperBound" true X.string) <|
  .nil

/-- cyclonedx.go:1201-1204 -/
def X.mlPerformanceMetricConfidenceInterval : XCodec MLPerformanceMetricConfidenceInterval := XCodec.struct X.mlPerformanceMetricConfidenceIntervalFields MLPerformanceMetricConfidenceInterval.toP MLPerformanceMetricConfidenceInterval.ofP

/-- cyclonedx.go:1194-1199 -/
def X.mlPerformanceMetricFields : XFields MLPerformanceMetric.P :=
  .elem (.plain "type" true X.string) <|
  .elem (.plain "value" true X.string) <|
  .elem (.plain "slice" true X.string) <|
  .elem (.ptr "confidenceInterval" X.mlPerformanceMetricConfidenceInterval) <|
  .nil

/-- cyclonedx.go:1194-1199 -/
def X.mlPerformanceMetric : XCodec MLPerformanceMetric := XCodec.struct X.mlPerformanceMetricFields MLPerformanceMetric.toP MLPerformanceMetric.ofP

/-- cyclonedx.go:1189-1192 -/
def X.mlQuantitativeAnalysisFields : XFields MLQuantitativeAnalysis.P :=
  .elem (.nlist "performanceMetrics" "performanceMetric" true X.mlPerformanceMetric) <|
  .elem (.ptr "graphics" X.componentDataGraphics) <|
  .nil

/-- cyclonedx.go:1189-1192 -/
def X.mlQuantitativeAnalysis : XCodec MLQuantitativeAnalysis := XCodec.struct X.mlQuantitativeAnalysisFields MLQuantitativeAnalysis.toP MLQuantitativeAnalysis.ofP

/-- cyclonedx.go:1065-1070 -/
def X.mlModelCardFields : XFields MLModelCard.P :=
  .attr "bom-ref" true XText.string <|
  .elem (.ptr "modelParameters" X.mlModelParameters) <|
  .elem (.ptr "quantitativeAnalysis" X.mlQuantitativeAnalysis) <|
  .elem (.ptr "considerations" X.mlModelCardConsiderations) <|
  .nil

/-- cyclonedx.go:1065-1070 -/
def X.mlModelCard : XCodec MLModelCard := XCodec.struct X.mlModelCardFields MLModelCard.toP MLModelCard.ofP

/-- cyclonedx.go:832-836 -/
def X.identifiableActionFields : XFields IdentifiableAction.P :=
  .elem (.plain "timestamp" true X.string) <|
  .elem (.plain "name" true X.string) <|
  .elem (.plain "email" true X.string) <|
  .nil

/-- cyclonedx.go:832-836 -/
def X.identifiableAction : XCodec IdentifiableAction := XCodec.struct X.identifiableActionFields IdentifiableAction.toP IdentifiableAction.ofP

/-- cyclonedx.go:231-237 -/
def X.commitFields : XFields Commit.P :=
  .elem (.plain "uid" true X.string) <|
  .elem (.plain "url" true X.string) <|
  .elem (.ptr "author" X.identifiableAction) <|
  .elem (.ptr "committer" X.identifiableAction) <|
  .elem (.plain "message" true X.string) <|
  .nil

/-- cyclonedx.go:231-237 -/
def X.commit : XCodec Commit := XCodec.struct X.commitFields Commit.toP Commit.ofP

/-- cyclonedx.go:650-653 -/
def X.diffFields : XFields Diff.P :=
  .elem (.ptr "text" X.attachedText) <|
  .elem (.plain "url" true X.string) <|
  .nil

/-- cyclonedx.go:650-653 -/
def X.diff : XCodec Diff := XCodec.struct X.diffFields Diff.toP Diff.ofP

/-- cyclonedx.go:1398-1401 -/
def X.sourceFields : XFields Source.P :=
  .elem (.plain "name" true X.string) <|
  .elem (.plain "url" true X.string) <|
  .nil

/-- cyclonedx.go:1398-1401 -/
def X.source : XCodec Source := XCodec.struct X.sourceFields Source.toP Source.ofP

/-- cyclonedx.go:892-899 -/
def X.issueFields : XFields Issue.P :=
  .elem (.plain "id" false X.string) <|
  .elem (.plain "name" true X.string) <|
  .elem (.plain "description" false X.string) <|
  .elem (.ptr "source" X.source) <|
  .elem (.nlist "references" "url" true X.string) <|
  .attr "type" false XText.string <|
  .nil

/-- cyclonedx.go:892-899 -/
def X.issue : XCodec Issue := XCodec.struct X.issueFields Issue.toP Issue.ofP

/-- cyclonedx.go:1237-1241 -/
def X.patchFields : XFields Patch.P :=
  .elem (.ptr "diff" X.diff) <|
  .elem (.nlist "resolves" "issue" true X.issue) <|
  .attr "type" false XText.string <|
  .nil

/-- cyclonedx.go:1237-1241 -/
def X.patch : XCodec Patch := XCodec.struct X.patchFields Patch.toP Patch.ofP

/-- cyclonedx.go:1252-1259, with the codec `C` for components. -/
def X.pedigreeFields (C : XCodec Component) : XFields (Pedigree.P Component) :=
  .elem (.nlist "ancestors" "component" true C) <|
  .elem (.nlist "descendants" "component" true C) <|
  .elem (.nlist "variants" "component" true C) <|
  .elem (.nlist "commits" "commit" true X.commit) <|
  .elem (.nlist "patches" "patch" true X.patch) <|
  .elem (.plain "notes" true X.string) <|
  .nil

/-- cyclonedx.go:1252-1259, with the codec `C` for components. -/
def X.pedigree (C : XCodec Component) : XCodec (Pedigree Component) :=
  XCodec.struct (X.pedigreeFields C) Pedigree.toP Pedigree.ofP

/-- cyclonedx.go:1206-1209 -/
def X.noteFields : XFields Note.P :=
  .elem (.plain "locale" true X.string) <|
  .elem (.plain "text" false X.attachedText) <|
  .nil

/-- cyclonedx.go:1206-1209 -/
def X.note : XCodec Note := XCodec.struct X.noteFields Note.toP Note.ofP

/-- cyclonedx.go:1323-1335 -/
def X.releaseNotesFields : XFields ReleaseNotes.P :=
  .elem (.plain "type" false X.string) <|
  .elem (.plain "title" true X.string) <|
  .elem (.plain "featuredImage" true X.string) <|
  .elem (.plain "socialImage" true X.string) <|
  .elem (.plain "description" true X.string) <|
  .elem (.plain "timestamp" true X.string) <|
  .elem (.nlist "aliases" "alias" true X.string) <|
  .elem (.nlist "tags" "tag" true X.string) <|
  .elem (.nlist "resolves" "issue" true X.issue) <|
  .elem (.nlist "notes" "note" true X.note) <|
  .elem (.nlist "properties" "property" true X.property) <|
  .nil

/-- cyclonedx.go:1323-1335 -/
def X.releaseNotes : XCodec ReleaseNotes := XCodec.struct X.releaseNotesFields ReleaseNotes.toP ReleaseNotes.ofP

/-- cyclonedx.go:1449-1457 -/
def X.swidFields : XFields SWID.P :=
  .elem (.ptr "text" X.attachedText) <|
  .attr "url" true XText.string <|
  .attr "tagId" false XText.string <|
  .attr "name" false XText.string <|
  .attr "version" true XText.string <|
  .attrPtr "tagVersion" XText.int <|
  .attrPtr "patch" XText.bool <|
  .nil

/-- cyclonedx.go:1449-1457 -/
def X.swid : XCodec SWID := XCodec.struct X.swidFields SWID.toP SWID.ofP

/-- cyclonedx_xml.go:552-556, the variable `raw` -/
def X.asserterChoiceRaw : XFields (Option OrganizationalEntity × Option OrganizationalContact × Option BOMReference × Unit) :=
  .elem (.ptr "organization" X.organizationalEntity) <| .elem (.ptr "contact" X.organizationalContact) <|
    .elem (.ptr "ref" X.bomReference) .nil

/-- cyclonedx_xml.go:529-564 -/
def X.asserterChoice : XCodec AsserterChoice where
  enc n ac :=
    match ac.organization, ac.individual, ac.bomRef with
    | some _, some _, _ => none
    | some o, none, _ =>
      (XCodec.struct (.elem (.ptr "organization" X.organizationalEntity) .nil) (fun o => (o, ())) (fun p => p.1)).enc
        n (some o)
    | none, some i, _ =>
      (XCodec.struct (.elem (.ptr "contact" X.organizationalContact) .nil) (fun i => (i, ())) (fun p => p.1)).enc
        n (some i)
    | none, none, some r =>
      (XCodec.struct (.elem (.ptr "ref" X.bomReference) .nil) (fun r => (r, ())) (fun p => p.1)).enc n (some r)
    | none, none, none => some none
  dec x _ :=
    match X.asserterChoiceRaw.dec x X.asserterChoiceRaw.zero with
    | none => none
    | some p => some { organization := p.1, individual := p.2.1, bomRef := p.2.2.1 }
  zero := {}
  empty _ := false
  writes ac := ac.organization.isSome || ac.individual.isSome || ac.bomRef.isSome
  norm ac :=
    match ac.organization, ac.individual, ac.bomRef with
    | some o, _, _ => { organization := some (X.organizationalEntity.norm o) }
    | none, some i, _ => { individual := some (X.organizationalContact.norm i) }
    | none, none, some r => { bomRef := some (X.bomReference.norm r) }
    | none, none, none => {}
  good ac :=
    (∀ o ∈ ac.organization, X.organizationalEntity.good o) ∧ (∀ i ∈ ac.individual, X.organizationalContact.good i)

/-- cyclonedx.go:1779-1785 -/
def X.patentAssertionFields : XFields PatentAssertion.P :=
  .attr "bom-ref" true XText.string <|
  .elem (.nlist "patentRefs" "bom-ref" true X.bomReference) <|
  .elem (.plain "assertionType" false X.string) <|
  .elem (.ptr "asserter" X.asserterChoice) <|
  .elem (.plain "notes" true X.string) <|
  .nil

/-- cyclonedx.go:1779-1785 -/
def X.patentAssertion : XCodec PatentAssertion := XCodec.struct X.patentAssertionFields PatentAssertion.toP PatentAssertion.ofP

/-- cyclonedx.go:239-276, with the codec `C` for nested components. -/
def X.componentFields (C : XCodec Component) : XFields Component.P :=
  .attr "bom-ref" true XText.string <|
  .attr "mime-type" true XText.string <|
  .attr "type" false XText.string <|
  .elem (.ptr "supplier" X.organizationalEntity) <|
  .elem (.ptr "manufacturer" X.organizationalEntity) <|
  .elem (.plain "author" true X.string) <|
  .elem (.nlist "authors" "author" true X.organizationalContact) <|
  .elem (.plain "publisher" true X.string) <|
  .elem (.plain "group" true X.string) <|
  .elem (.plain "name" false X.string) <|
  .elem (.plain "version" true X.string) <|
  .elem (.plain "description" true X.string) <|
  .elem (.plain "scope" true X.string) <|
  .elem (.nlist "hashes" "hash" true X.hash) <|
  .elem (.slice "licenses" X.licenses) <|
  .elem (.plain "copyright" true X.string) <|
  .elem (.plain "cpe" true X.string) <|
  .elem (.plain "purl" true X.string) <|
  .elem (.list "omniborId" true X.string) <|
  .elem (.list "swhid" true X.string) <|
  .elem (.ptr "swid" X.swid) <|
  .elem (.ptr "modified" X.bool) <|
  .elem (.ptr "pedigree" (X.pedigree C)) <|
  .elem (.nlist "externalReferences" "reference" true X.externalReference) <|
  .elem (.nlist "properties" "property" true X.property) <|
  .elem (.nlist "components" "component" true C) <|
  .elem (.ptr "evidence" X.evidence) <|
  .elem (.ptr "releaseNotes" X.releaseNotes) <|
  .elem (.ptr "modelCard" X.mlModelCard) <|
  .elem (.list "data" true X.componentData) <|
  .elem (.ptr "cryptoProperties" X.cryptoProperties) <|
  .elem (.nlist "tags" "tag" true X.string) <|
  .elem (.ptr "isExternal" X.bool) <|
  .elem (.nlist "patentAssertions" "patentAssertion" true X.patentAssertion) <|
  .elem (.plain "versionRange" true X.string) <|
  .skip none <|
  .nil

/-- cyclonedx.go:239-276, with the codec `C` for nested components. -/
def X.componentWith (C : XCodec Component) : XCodec Component :=
  XCodec.struct (X.componentFields C) Component.toP Component.ofP

/-- The codec of components nested less than `n` deep. -/
def X.componentN : Nat → XCodec Component
  | 0 => X.bottom {}
  | n + 1 => X.componentWith (X.componentN n)

/-- cyclonedx.go:239-276: a component of any depth.  It satisfies the recursive equations of the Go
type (`Verif.xcomponent_enc`, `xcomponent_dec`). -/
def X.component : XCodec Component := X.knot {} X.componentN Component.height

mutual
/-- The tokens of a content as a loop sees them that acts on the elements called in `known`, does not skip
other elements but goes on inside them, and returns at the end of an element called `stop`: `none` if that
happens inside the content, which then is not read to its end. -/
def X.spliced (known : List String) (stop : String) : List Xml → Option (List Xml)
  | [] => some []
  | x :: xs =>
    match X.spliceOne known stop x, X.spliced known stop xs with
    | some ys, some zs => some (ys ++ zs)
    | _, _ => none
/-- `X.spliced` for one element. -/
def X.spliceOne (known : List String) (stop : String) : Xml → Option (List Xml)
  | .text _ => some []
  | .elem name as ks =>
    if name ∈ known then some [.elem name as ks]
    else if name = stop then none
    else X.spliced known stop ks
end

/-- cyclonedx_xml.go:1068-1087: the URLs of a source or destination.  Simplified: an element of the same name
nested in it, and not in a URL, ends the loop early in Go; here it is an error. -/
def X.urls (name : String) (ks : List Xml) : Option (List String) :=
  (X.spliced ["url"] name ks).map fun ys => ys.map fun y => textOf y.kids

/-- cyclonedx_xml.go:1037-1044 and 1056-1060: the last attribute with this name, if there is one. -/
def X.lastAttr (name : String) (as : List (String × String)) (old : String) : String :=
  as.foldl (fun v kv => if kv.1 = name then kv.2 else v) old

/-- cyclonedx_xml.go:1052-1117, the body of the loop. -/
def X.dataClassificationStep (x : Xml) (dc : DataClassification) : Option DataClassification :=
  match x with
  | .text _ => some dc
  | .elem name as ks =>
    if name = "classification" then
      some { dc with flow := X.lastAttr "flow" as dc.flow, classification := textOf ks }
    else if name = "governance" then
      (X.dataGovernance.dec (.elem name as ks) X.dataGovernance.zero).map fun g => { dc with governance := some g }
    else if name = "source" then
      (X.urls "source" ks).map fun us => if us ≠ [] then { dc with source := .list us } else dc
    else if name = "destination" then
      (X.urls "destination" ks).map fun us => if us ≠ [] then { dc with destination := .list us } else dc
    else some dc

/-- An attribute that is left out if it is empty. -/
def X.attrUnlessEmpty (name value : String) : List (String × String) :=
  if value ≠ "" then [(name, sanitize value)] else []

/-- cyclonedx_xml.go:990-1008: the list of URLs of a source or destination. -/
def X.urlsElem (name : String) (urls : PSlice String) : List Xml :=
  match urls.elems with
  | [] => []
  | us => [.elem name [] (us.map fun u => .elem "url" [] (textKids (sanitize u)))]

/-- cyclonedx_xml.go:955-1128.  The element is always called `dataflow`, whatever the name of the field; an
element of another name is never read to its end, which is an error. -/
def X.dataClassification : XCodec DataClassification where
  enc _ dc :=
    match (XField.ptr "governance" X.dataGovernance).enc dc.governance with
    | none => none
    | some gs =>
      some (some (.elem "dataflow" (X.attrUnlessEmpty "name" dc.name ++ X.attrUnlessEmpty "description" dc.description)
        ((if dc.classification ≠ "" ∨ dc.flow ≠ "" then
            [.elem "classification" (X.attrUnlessEmpty "flow" dc.flow) (textKids (sanitize dc.classification))]
          else []) ++ gs ++ X.urlsElem "source" dc.source ++ X.urlsElem "destination" dc.destination)))
  dec x dc :=
    if x.name ≠ "dataflow" then none
    else
      match X.spliced ["classification", "governance", "source", "destination"] "dataflow" x.kids with
      | none => none
      | some ys =>
        XField.decAll X.dataClassificationStep ys
          { dc with name := X.lastAttr "name" x.attrs dc.name,
                    description := X.lastAttr "description" x.attrs dc.description }
  zero := {}
  empty _ := false
  norm dc :=
    { flow := sanitize dc.flow, classification := sanitize dc.classification, name := sanitize dc.name,
      description := sanitize dc.description, governance := dc.governance.map X.dataGovernance.norm,
      source := XField.ofList (dc.source.elems.map sanitize),
      destination := XField.ofList (dc.destination.elems.map sanitize) }
  good dc := ∀ g ∈ dc.governance, X.dataGovernance.good g
  rename _ := "dataflow"

/-- cyclonedx.go:1362-1382, with the codec `C` for nested services. -/
def X.serviceFields (C : XCodec Service) : XFields Service.P :=
  .attr "bom-ref" true XText.string <|
  .elem (.ptr "provider" X.organizationalEntity) <|
  .elem (.plain "group" true X.string) <|
  .elem (.plain "name" false X.string) <|
  .elem (.plain "version" true X.string) <|
  .elem (.plain "description" true X.string) <|
  .elem (.nlist "endpoints" "endpoint" true X.string) <|
  .elem (.ptr "authenticated" X.bool) <|
  .elem (.ptr "x-trust-boundary" X.bool) <|
  .elem (.nlist "data" "dataflow" true X.dataClassification) <|
  .elem (.slice "licenses" X.licenses) <|
  .elem (.nlist "externalReferences" "reference" true X.externalReference) <|
  .elem (.nlist "properties" "property" true X.property) <|
  .elem (.nlist "services" "service" true C) <|
  .elem (.ptr "releaseNotes" X.releaseNotes) <|
  .elem (.nlist "tags" "tag" true X.string) <|
  .elem (.plain "trustZone" true X.string) <|
  .elem (.nlist "patentAssertions" "patentAssertion" true X.patentAssertion) <|
  .skip none <|
  .nil

/-- cyclonedx.go:1362-1382, with the codec `C` for nested services. -/
def X.serviceWith (C : XCodec Service) : XCodec Service :=
  XCodec.struct (X.serviceFields C) Service.toP Service.ofP

/-- The codec of services nested less than `n` deep. -/
def X.serviceN : Nat → XCodec Service
  | 0 => X.bottom {}
  | n + 1 => X.serviceWith (X.serviceN n)

/-- cyclonedx.go:1362-1382: a service of any depth (`Verif.xservice_enc`, `xservice_dec`). -/
def X.service : XCodec Service := X.knot {} X.serviceN Service.height

/-- cyclonedx.go:60-65 -/
def X.annotatorFields : XFields Annotator.P :=
  .elem (.ptr "organization" X.organizationalEntity) <|
  .elem (.ptr "individual" X.organizationalContact) <|
  .elem (.ptr "component" X.component) <|
  .elem (.ptr "service" X.service) <|
  .nil

/-- cyclonedx.go:60-65 -/
def X.annotator : XCodec Annotator := XCodec.struct X.annotatorFields Annotator.toP Annotator.ofP

/-- cyclonedx.go:51-58 -/
def X.annotationFields : XFields Annotation.P :=
  .attr "bom-ref" true XText.string <|
  .elem (.nlist "subjects" "subject" true X.bomReference) <|
  .elem (.ptr "annotator" X.annotator) <|
  .elem (.plain "timestamp" true X.string) <|
  .elem (.plain "text" true X.string) <|
  .skip none <|
  .nil

/-- cyclonedx.go:51-58 -/
def X.annotation : XCodec Annotation := XCodec.struct X.annotationFields Annotation.toP Annotation.ofP

/-- cyclonedx.go:67-71 -/
def X.assessorFields : XFields Assessor.P :=
  .attr "bom-ref" true XText.bomReference <|
  .elem (.plain "thirdParty" true X.bool) <|
  .elem (.ptr "organization" X.organizationalEntity) <|
  .nil

/-- cyclonedx.go:67-71 -/
def X.assessor : XCodec Assessor := XCodec.struct X.assessorFields Assessor.toP Assessor.ofP

/-- cyclonedx.go:94-98 -/
def X.attestationConformanceFields : XFields AttestationConformance.P :=
  .elem (.ptr "score" X.f64) <|
  .elem (.plain "rationale" true X.string) <|
  .elem (.nlist "mitigationStrategies" "mitigationStrategy" true X.bomReference) <|
  .nil

/-- cyclonedx.go:94-98 -/
def X.attestationConformance : XCodec AttestationConformance := XCodec.struct X.attestationConformanceFields AttestationConformance.toP AttestationConformance.ofP

/-- cyclonedx.go:100-103 -/
def X.attestationConfidenceFields : XFields AttestationConfidence.P :=
  .elem (.ptr "score" X.f64) <|
  .elem (.plain "rationale" true X.string) <|
  .nil

/-- cyclonedx.go:100-103 -/
def X.attestationConfidence : XCodec AttestationConfidence := XCodec.struct X.attestationConfidenceFields AttestationConfidence.toP AttestationConfidence.ofP

/-- cyclonedx.go:86-92 -/
def X.attestationMapFields : XFields AttestationMap.P :=
  .elem (.plain "requirement" true X.string) <|
  .elem (.nlist "claims" "claim" true X.bomReference) <|
  .elem (.nlist "counterClaims" "counterClaim" true X.bomReference) <|
  .elem (.ptr "conformance" X.attestationConformance) <|
  .elem (.ptr "confidence" X.attestationConfidence) <|
  .nil

/-- cyclonedx.go:86-92 -/
def X.attestationMap : XCodec AttestationMap := XCodec.struct X.attestationMapFields AttestationMap.toP AttestationMap.ofP

/-- cyclonedx.go:79-84 -/
def X.attestationFields : XFields Attestation.P :=
  .elem (.plain "summary" true X.string) <|
  .elem (.plain "assessor" true X.bomReference) <|
  .elem (.list "map" true X.attestationMap) <|
  .skip none <|
  .nil

/-- cyclonedx.go:79-84 -/
def X.attestation : XCodec Attestation := XCodec.struct X.attestationFields Attestation.toP Attestation.ofP

/-- cyclonedx.go:321-328 -/
def X.compositionFields : XFields Composition.P :=
  .attr "bom-ref" true XText.string <|
  .elem (.plain "aggregate" false X.string) <|
  .elem (.nlist "assemblies" "assembly" true X.bomReference) <|
  .elem (.nlist "dependencies" "dependency" true X.bomReference) <|
  .elem (.nlist "vulnerabilities" "vulnerability" true X.bomReference) <|
  .skip none <|
  .nil

/-- cyclonedx.go:321-328 -/
def X.composition : XCodec Composition := XCodec.struct X.compositionFields Composition.toP Composition.ofP

/-- cyclonedx.go:193-203 -/
def X.claimFields : XFields Claim.P :=
  .attr "bom-ref" true XText.string <|
  .elem (.plain "target" true X.bomReference) <|
  .elem (.plain "predicate" true X.string) <|
  .elem (.nlist "mitigationStrategies" "mitigationStrategy" true X.bomReference) <|
  .elem (.plain "reasoning" true X.string) <|
  .elem (.list "evidence" true X.bomReference) <|
  .elem (.list "counterEvidence" true X.bomReference) <|
  .elem (.nlist "externalReferences" "reference" true X.externalReference) <|
  .skip none <|
  .nil

/-- cyclonedx.go:193-203 -/
def X.claim : XCodec Claim := XCodec.struct X.claimFields Claim.toP Claim.ofP

/-- cyclonedx.go:619-622 -/
def X.evidenceDataContentsFields : XFields EvidenceDataContents.P :=
  .elem (.ptr "attachment" X.attachedText) <|
  .elem (.plain "url" true X.string) <|
  .nil

/-- cyclonedx.go:619-622 -/
def X.evidenceDataContents : XCodec EvidenceDataContents := XCodec.struct X.evidenceDataContentsFields EvidenceDataContents.toP EvidenceDataContents.ofP

/-- cyclonedx.go:611-617 -/
def X.evidenceDataFields : XFields EvidenceData.P :=
  .elem (.plain "name" true X.string) <|
  .elem (.ptr "contents" X.evidenceDataContents) <|
  .elem (.nptr "data" "classification" X.dataClassification) <|
  .elem (.list "sensitiveData" true X.string) <|
  .elem (.ptr "governance" X.dataGovernance) <|
  .nil

/-- cyclonedx.go:611-617 -/
def X.evidenceData : XCodec EvidenceData := XCodec.struct X.evidenceDataFields EvidenceData.toP EvidenceData.ofP

/-- cyclonedx.go:586-596 -/
def X.declarationEvidenceFields : XFields DeclarationEvidence.P :=
  .attr "bom-ref" true XText.string <|
  .elem (.plain "propertyName" true X.string) <|
  .elem (.plain "description" true X.string) <|
  .elem (.list "data" true X.evidenceData) <|
  .elem (.plain "created" true X.string) <|
  .elem (.plain "expires" true X.string) <|
  .elem (.ptr "author" X.organizationalContact) <|
  .elem (.ptr "reviewer" X.organizationalContact) <|
  .skip none <|
  .nil

/-- cyclonedx.go:586-596 -/
def X.declarationEvidence : XCodec DeclarationEvidence := XCodec.struct X.declarationEvidenceFields DeclarationEvidence.toP DeclarationEvidence.ofP

/-- cyclonedx.go:624-628 -/
def X.targetsFields : XFields Targets.P :=
  .elem (.nlist "organizations" "organization" true X.organizationalEntity) <|
  .elem (.nlist "components" "component" true X.component) <|
  .elem (.nlist "services" "service" true X.service) <|
  .nil

/-- cyclonedx.go:624-628 -/
def X.targets : XCodec Targets := XCodec.struct X.targetsFields Targets.toP Targets.ofP

/-- cyclonedx.go:636-642 -/
def X.signatoryFields : XFields Signatory.P :=
  .elem (.plain "name" true X.string) <|
  .elem (.plain "role" true X.string) <|
  .skip none <|
  .elem (.ptr "organization" X.organizationalEntity) <|
  .elem (.ptr "externalReference" X.externalReference) <|
  .nil

/-- cyclonedx.go:636-642 -/
def X.signatory : XCodec Signatory := XCodec.struct X.signatoryFields Signatory.toP Signatory.ofP

/-- cyclonedx.go:630-634 -/
def X.affirmationFields : XFields Affirmation.P :=
  .elem (.plain "statement" true X.string) <|
  .elem (.nlist "signatories" "signatory" true X.signatory) <|
  .skip none <|
  .nil

/-- cyclonedx.go:630-634 -/
def X.affirmation : XCodec Affirmation := XCodec.struct X.affirmationFields Affirmation.toP Affirmation.ofP

/-- cyclonedx.go:576-584 -/
def X.declarationsFields : XFields Declarations.P :=
  .elem (.nlist "assessors" "assessor" true X.assessor) <|
  .elem (.nlist "attestations" "attestation" true X.attestation) <|
  .elem (.nlist "claims" "claim" true X.claim) <|
  .elem (.nlist "evidence" "evidence" true X.declarationEvidence) <|
  .elem (.ptr "targets" X.targets) <|
  .elem (.ptr "affirmation" X.affirmation) <|
  .skip none <|
  .nil

/-- cyclonedx.go:576-584 -/
def X.declarations : XCodec Declarations := XCodec.struct X.declarationsFields Declarations.toP Declarations.ofP

/-- cyclonedx.go:1802-1806 -/
def X.priorityApplicationFields : XFields PriorityApplication.P :=
  .elem (.plain "applicationNumber" false X.string) <|
  .elem (.plain "jurisdiction" false X.string) <|
  .elem (.plain "filingDate" false X.string) <|
  .nil

/-- cyclonedx.go:1802-1806 -/
def X.priorityApplication : XCodec PriorityApplication := XCodec.struct X.priorityApplicationFields PriorityApplication.toP PriorityApplication.ofP

/-- cyclonedx.go:1743-1758 -/
def X.patentFields : XFields Patent.P :=
  .attr "bom-ref" true XText.string <|
  .elem (.plain "patentNumber" false X.string) <|
  .elem (.plain "applicationNumber" true X.string) <|
  .elem (.plain "jurisdiction" false X.string) <|
  .elem (.ptr "priorityApplication" X.priorityApplication) <|
  .elem (.plain "publicationNumber" true X.string) <|
  .elem (.plain "title" true X.string) <|
  .elem (.plain "abstract" true X.string) <|
  .elem (.plain "filingDate" true X.string) <|
  .elem (.plain "grantDate" true X.string) <|
  .elem (.plain "patentExpirationDate" true X.string) <|
  .elem (.plain "patentLegalStatus" false X.string) <|
  .elem (.list "patentAssignee" true X.organizationalEntityOrContact) <|
  .elem (.nlist "externalReferences" "reference" true X.externalReference) <|
  .nil

/-- cyclonedx.go:1743-1758 -/
def X.patent : XCodec Patent := XCodec.struct X.patentFields Patent.toP Patent.ofP

/-- cyclonedx.go:1761-1767 -/
def X.patentFamilyFields : XFields PatentFamily.P :=
  .attr "bom-ref" true XText.string <|
  .elem (.plain "familyId" false X.string) <|
  .elem (.ptr "priorityApplication" X.priorityApplication) <|
  .elem (.nlist "members" "ref" true X.bomReference) <|
  .elem (.nlist "externalReferences" "reference" true X.externalReference) <|
  .nil

/-- cyclonedx.go:1761-1767 -/
def X.patentFamily : XCodec PatentFamily := XCodec.struct X.patentFamilyFields PatentFamily.toP PatentFamily.ofP

/-- cyclonedx.go:1429-1439 -/
def X.standardRequirementFields : XFields StandardRequirement.P :=
  .attr "bom-ref" true XText.string <|
  .elem (.plain "identifier" true X.string) <|
  .elem (.plain "title" true X.string) <|
  .elem (.plain "text" true X.string) <|
  .elem (.nlist "descriptions" "description" true X.string) <|
  .elem (.list "openCre" true X.string) <|
  .elem (.plain "parent" true X.string) <|
  .elem (.nlist "properties" "property" true X.property) <|
  .elem (.nlist "externalReferences" "reference" true X.externalReference) <|
  .nil

/-- cyclonedx.go:1429-1439 -/
def X.standardRequirement : XCodec StandardRequirement := XCodec.struct X.standardRequirementFields StandardRequirement.toP StandardRequirement.ofP

/-- cyclonedx.go:1441-1447 -/
def X.standardLevelFields : XFields StandardLevel.P :=
  .attr "bom-ref" true XText.string <|
  .elem (.plain "identifier" true X.string) <|
  .elem (.plain "title" true X.string) <|
  .elem (.plain "description" true X.string) <|
  .elem (.nlist "requirements" "requirement" true X.string) <|
  .nil

/-- cyclonedx.go:1441-1447 -/
def X.standardLevel : XCodec StandardLevel := XCodec.struct X.standardLevelFields StandardLevel.toP StandardLevel.ofP

/-- cyclonedx.go:1416-1427 -/
def X.standardDefinitionFields : XFields StandardDefinition.P :=
  .attr "bom-ref" true XText.string <|
  .elem (.plain "name" true X.string) <|
  .elem (.plain "version" true X.string) <|
  .elem (.plain "description" true X.string) <|
  .elem (.plain "owner" true X.string) <|
  .elem (.nlist "requirements" "requirement" true X.standardRequirement) <|
  .elem (.nlist "levels" "level" true X.standardLevel) <|
  .elem (.nlist "externalReferences" "reference" true X.externalReference) <|
  .skip none <|
  .nil

/-- cyclonedx.go:1416-1427 -/
def X.standardDefinition : XCodec StandardDefinition := XCodec.struct X.standardDefinitionFields StandardDefinition.toP StandardDefinition.ofP

/-- cyclonedx_xml.go:1156-1164, the body of the loop. -/
def X.patentChoiceEnc (choice : PatentChoice) : Option (List Xml) :=
  match choice.patent, choice.patentFamily with
  | some p, _ => (X.patent.enc "patent" p).map (·.toList)
  | none, some f => (X.patentFamily.enc "patentFamily" f).map (·.toList)
  | none, none => some []

/-- cyclonedx_xml.go:1217-1235, the body of the loop.  The loop ends at the end of the first element it does
not know; the end of `patents` then ends `UnmarshalXML` before the end of its element, which is an error. -/
def X.patentChoiceDec : Xml → Option (List PatentChoice)
  | .text _ => some []
  | .elem name as ks =>
    if name = "patent" then
      (X.patent.dec (.elem name as ks) X.patent.zero).map fun p => [{ patent := some p }]
    else if name = "patentFamily" then
      (X.patentFamily.dec (.elem name as ks) X.patentFamily.zero).map fun f => [{ patentFamily := some f }]
    else none

/-- What a choice is read back as. -/
def X.patentChoiceNorm (choice : PatentChoice) : List PatentChoice :=
  match choice.patent, choice.patentFamily with
  | some p, _ => [{ patent := some (X.patent.norm p) }]
  | none, some f => [{ patentFamily := some (X.patentFamily.norm f) }]
  | none, none => []

/-- cyclonedx_xml.go:1188-1203, the body of the loop; an element it does not know is an error as above. -/
def X.standardDec : Xml → Option (List StandardDefinition)
  | .text _ => some []
  | .elem name as ks =>
    if name = "standard" then
      (X.standardDefinition.dec (.elem name as ks) X.standardDefinition.zero).map fun s => [s]
    else none

/-- cyclonedx_xml.go:1183-1250, the body of the loop. -/
def X.definitionsStep (x : Xml) (d : Definitions) : Option Definitions :=
  match x with
  | .text _ => some d
  | .elem name _ ks =>
    if name = "standards" then
      (X.decEach X.standardDec ks).map fun ss => if ss ≠ [] then { d with standards := .list ss } else d
    else if name = "patents" then
      (X.decEach X.patentChoiceDec ks).map fun ps => if ps ≠ [] then { d with patents := .list ps } else d
    else some d

/-- A list with an enclosing element, which is left out only for the nil pointer. -/
def X.enclosed {α : Type} (name : String) (f : α → Option (List Xml)) : PSlice α → Option (List Xml)
  | .nil => some []
  | as => (X.encEach f as.elems).map fun ks => [.elem name [] ks]

/-- cyclonedx_xml.go:1130-1255 -/
def X.definitions : XCodec Definitions where
  enc n d :=
    match X.enclosed "standards" (fun s => (X.standardDefinition.enc "standard" s).map (·.toList)) d.standards,
        X.enclosed "patents" X.patentChoiceEnc d.patents with
    | some ss, some ps => some (some (.elem n [] (ss ++ ps)))
    | _, _ => none
  dec x d := XField.decAll X.definitionsStep x.kids d
  zero := {}
  empty _ := false
  norm d :=
    { standards := XField.ofList (d.standards.elems.map X.standardDefinition.norm),
      patents := XField.ofList (d.patents.elems.flatMap X.patentChoiceNorm) }
  good d :=
    (∀ s ∈ d.standards.elems, X.standardDefinition.good s) ∧
      ∀ c ∈ d.patents.elems, (∀ p ∈ c.patent, X.patent.good p) ∧ (∀ f ∈ c.patentFamily, X.patentFamily.good f)

/-- cyclonedx_xml.go:62-66 `dependencyXML` -/
def X.dependencyFields : XFields Dependency.P :=
  .attr "ref" false XText.string <| .elem (.list "dependency" true X.dependencyRef) <|
    .elem (.list "provides" true X.dependencyRef) .nil

/-- cyclonedx_xml.go:68-116: empty lists are left out, which writes and reads the same as an empty list. -/
def X.dependency : XCodec Dependency :=
  X.fresh (XCodec.struct X.dependencyFields Dependency.toP Dependency.ofP)

/-- cyclonedx.go:1337-1340 -/
def X.resourceReferenceChoiceFields : XFields ResourceReferenceChoice.P :=
  .elem (.plain "ref" true X.string) <|
  .elem (.ptr "externalReference" X.externalReference) <|
  .nil

/-- cyclonedx.go:1337-1340 -/
def X.resourceReferenceChoice : XCodec ResourceReferenceChoice := XCodec.struct X.resourceReferenceChoiceFields ResourceReferenceChoice.toP ResourceReferenceChoice.ofP

/-- cyclonedx_xml.go:128-144, the body of the loop. -/
def X.environmentVariableEnc (choice : EnvironmentVariableChoice) : Option (List Xml) :=
  match choice.property with
  | some p => if choice.value ≠ "" then none else (X.property.enc "environmentVar" p).map (·.toList)
  | none => if choice.value ≠ "" then (X.string.enc "value" choice.value).map (·.toList) else some []

/-- cyclonedx_xml.go:161-181, the body of the loop. -/
def X.environmentVariableDec : Xml → Option (List EnvironmentVariableChoice)
  | .text _ => some []
  | .elem name as ks =>
    if name = "value" then (X.string.dec (.elem name as ks) "").map fun v => [{ value := v }]
    else if name = "environmentVar" then
      (X.property.dec (.elem name as ks) X.property.zero).map fun p => [{ property := some p }]
    else none

/-- What a choice is read back as. -/
def X.environmentVariableNorm (choice : EnvironmentVariableChoice) : List EnvironmentVariableChoice :=
  match choice.property with
  | some p => [{ property := some (X.property.norm p) }]
  | none => if choice.value ≠ "" then [{ value := sanitize choice.value }] else []

/-- cyclonedx_xml.go:118-186 -/
def X.environmentVariables : XCodec (List EnvironmentVariableChoice) where
  enc n evs :=
    match evs with
    | [] => some none
    | evs => (X.encEach X.environmentVariableEnc evs).map fun ks => some (.elem n [] ks)
  dec x _ := X.decEach X.environmentVariableDec x.kids
  zero := []
  empty evs := evs.isEmpty
  writes evs := !evs.isEmpty
  norm evs := evs.flatMap X.environmentVariableNorm

/-- cyclonedx.go:1231-1235 -/
def X.parameterFields : XFields Parameter.P :=
  .elem (.plain "name" true X.string) <|
  .elem (.plain "value" true X.string) <|
  .elem (.plain "dataType" true X.string) <|
  .nil

/-- cyclonedx.go:1231-1235 -/
def X.parameter : XCodec Parameter := XCodec.struct X.parameterFields Parameter.toP Parameter.ofP

/-- cyclonedx.go:1482-1490 -/
def X.taskInputFields : XFields TaskInput.P :=
  .elem (.ptr "resource" X.resourceReferenceChoice) <|
  .elem (.nlist "parameters" "parameter" true X.parameter) <|
  .elem (.slice "environmentVars" X.environmentVariables) <|
  .elem (.ptr "data" X.attachedText) <|
  .elem (.ptr "source" X.resourceReferenceChoice) <|
  .elem (.ptr "target" X.resourceReferenceChoice) <|
  .elem (.nlist "properties" "property" true X.property) <|
  .nil

/-- cyclonedx.go:1482-1490 -/
def X.taskInput : XCodec TaskInput := XCodec.struct X.taskInputFields TaskInput.toP TaskInput.ofP

/-- cyclonedx.go:1492-1501 -/
def X.taskOutputFields : XFields TaskOutput.P :=
  .elem (.ptr "resource" X.resourceReferenceChoice) <|
  .elem (.nlist "parameters" "parameter" true X.parameter) <|
  .elem (.slice "environmentVars" X.environmentVariables) <|
  .elem (.ptr "data" X.attachedText) <|
  .elem (.plain "type" true X.string) <|
  .elem (.ptr "source" X.resourceReferenceChoice) <|
  .elem (.ptr "target" X.resourceReferenceChoice) <|
  .elem (.nlist "properties" "property" true X.property) <|
  .nil

/-- cyclonedx.go:1492-1501 -/
def X.taskOutput : XCodec TaskOutput := XCodec.struct X.taskOutputFields TaskOutput.toP TaskOutput.ofP

/-- cyclonedx.go:1477-1480 -/
def X.taskCommandFields : XFields TaskCommand.P :=
  .elem (.plain "executed" true X.string) <|
  .elem (.nlist "properties" "property" true X.property) <|
  .nil

/-- cyclonedx.go:1477-1480 -/
def X.taskCommand : XCodec TaskCommand := XCodec.struct X.taskCommandFields TaskCommand.toP TaskCommand.ofP

/-- cyclonedx.go:1514-1519 -/
def X.taskStepFields : XFields TaskStep.P :=
  .elem (.plain "name" true X.string) <|
  .elem (.plain "description" true X.string) <|
  .elem (.nlist "commands" "command" true X.taskCommand) <|
  .elem (.nlist "properties" "property" true X.property) <|
  .nil

/-- cyclonedx.go:1514-1519 -/
def X.taskStep : XCodec TaskStep := XCodec.struct X.taskStepFields TaskStep.toP TaskStep.ofP

/-- cyclonedx.go:662-670 -/
def X.eventFields : XFields Event.P :=
  .elem (.plain "uid" true X.string) <|
  .elem (.plain "description" true X.string) <|
  .elem (.plain "timeReceived" true X.string) <|
  .elem (.ptr "data" X.attachedText) <|
  .elem (.ptr "source" X.resourceReferenceChoice) <|
  .elem (.ptr "target" X.resourceReferenceChoice) <|
  .elem (.nlist "properties" "property" true X.property) <|
  .nil

/-- cyclonedx.go:662-670 -/
def X.event : XCodec Event := XCodec.struct X.eventFields Event.toP Event.ofP

/-- cyclonedx.go:1536-1540 -/
def X.taskTriggerConditionFields : XFields TaskTriggerCondition.P :=
  .elem (.plain "description" true X.string) <|
  .elem (.plain "expression" true X.string) <|
  .elem (.nlist "properties" "property" true X.property) <|
  .nil

/-- cyclonedx.go:1536-1540 -/
def X.taskTriggerCondition : XCodec TaskTriggerCondition := XCodec.struct X.taskTriggerConditionFields TaskTriggerCondition.toP TaskTriggerCondition.ofP

/-- cyclonedx.go:1521-1534 -/
def X.taskTriggerFields : XFields TaskTrigger.P :=
  .attr "bom-ref" true XText.string <|
  .elem (.plain "uid" true X.string) <|
  .elem (.plain "name" true X.string) <|
  .elem (.plain "description" true X.string) <|
  .elem (.nlist "resourceReferences" "resourceReference" true X.resourceReferenceChoice) <|
  .elem (.plain "type" true X.string) <|
  .elem (.ptr "event" X.event) <|
  .elem (.nlist "conditions" "condition" true X.taskTriggerCondition) <|
  .elem (.plain "timeActivated" true X.string) <|
  .elem (.nlist "inputs" "input" true X.taskInput) <|
  .elem (.nlist "outputs" "output" true X.taskOutput) <|
  .elem (.nlist "properties" "property" true X.property) <|
  .nil

/-- cyclonedx.go:1521-1534 -/
def X.taskTrigger : XCodec TaskTrigger := XCodec.struct X.taskTriggerFields TaskTrigger.toP TaskTrigger.ofP

/-- cyclonedx.go:1616-1625 -/
def X.volumeFields : XFields Volume.P :=
  .elem (.plain "uid" true X.string) <|
  .elem (.plain "name" true X.string) <|
  .elem (.plain "mode" true X.string) <|
  .elem (.plain "path" true X.string) <|
  .elem (.plain "sizeAllocated" true X.string) <|
  .elem (.ptr "persistent" X.bool) <|
  .elem (.ptr "remote" X.bool) <|
  .elem (.nlist "properties" "property" true X.property) <|
  .nil

/-- cyclonedx.go:1616-1625 -/
def X.volume : XCodec Volume := XCodec.struct X.volumeFields Volume.toP Volume.ofP

/-- cyclonedx.go:1568-1581 -/
def X.taskWorkspaceFields : XFields TaskWorkspace.P :=
  .attr "bom-ref" true XText.string <|
  .elem (.plain "uid" true X.string) <|
  .elem (.plain "name" true X.string) <|
  .elem (.nlist "aliases" "alias" true X.string) <|
  .elem (.plain "description" true X.string) <|
  .elem (.nlist "resourceReferences" "resourceReference" true X.resourceReferenceChoice) <|
  .elem (.plain "accessMode" true X.string) <|
  .elem (.plain "mountPath" true X.string) <|
  .elem (.plain "managedDataType" true X.string) <|
  .elem (.plain "volumeRequest" true X.string) <|
  .elem (.ptr "volume" X.volume) <|
  .elem (.nlist "properties" "property" true X.property) <|
  .nil

/-- cyclonedx.go:1568-1581 -/
def X.taskWorkspace : XCodec TaskWorkspace := XCodec.struct X.taskWorkspaceFields TaskWorkspace.toP TaskWorkspace.ofP

/-- cyclonedx.go:1459-1475 -/
def X.taskFields : XFields Task.P :=
  .attr "bom-ref" true XText.string <|
  .elem (.plain "uid" true X.string) <|
  .elem (.plain "name" true X.string) <|
  .elem (.plain "description" true X.string) <|
  .elem (.nlist "properties" "property" true X.property) <|
  .elem (.nlist "resourceReferences" "resourceReference" true X.resourceReferenceChoice) <|
  .elem (.nlist "taskTypes" "taskType" true X.string) <|
  .elem (.ptr "trigger" X.taskTrigger) <|
  .elem (.nlist "steps" "step" true X.taskStep) <|
  .elem (.nlist "inputs" "input" true X.taskInput) <|
  .elem (.nlist "outputs" "output" true X.taskOutput) <|
  .elem (.plain "timeStart" true X.string) <|
  .elem (.plain "timeEnd" true X.string) <|
  .elem (.nlist "workspaces" "workspace" true X.taskWorkspace) <|
  .elem (.nlist "runtimeTopology" "dependency" true X.dependency) <|
  .nil

/-- cyclonedx.go:1459-1475 -/
def X.task : XCodec Task := XCodec.struct X.taskFields Task.toP Task.ofP

/-- cyclonedx.go:1689-1707 -/
def X.workflowFields : XFields Workflow.P :=
  .attr "bom-ref" true XText.string <|
  .elem (.plain "uid" true X.string) <|
  .elem (.plain "name" true X.string) <|
  .elem (.plain "description" true X.string) <|
  .elem (.nlist "resourceReferences" "resourceReference" true X.resourceReferenceChoice) <|
  .elem (.nlist "tasks" "task" true X.task) <|
  .elem (.nlist "taskDependencies" "dependency" false X.dependency) <|
  .elem (.nlist "taskTypes" "taskType" true X.string) <|
  .elem (.ptr "trigger" X.taskTrigger) <|
  .elem (.nlist "steps" "step" true X.taskStep) <|
  .elem (.nlist "inputs" "input" true X.taskInput) <|
  .elem (.nlist "outputs" "output" true X.taskOutput) <|
  .elem (.plain "timeStart" true X.string) <|
  .elem (.plain "timeEnd" true X.string) <|
  .elem (.nlist "workspaces" "workspace" true X.taskWorkspace) <|
  .elem (.nlist "runtimeTopology" "dependency" true X.dependency) <|
  .elem (.nlist "properties" "property" true X.property) <|
  .nil

/-- cyclonedx.go:1689-1707 -/
def X.workflow : XCodec Workflow := XCodec.struct X.workflowFields Workflow.toP Workflow.ofP

/-- cyclonedx.go:800-806 -/
def X.formulaFields : XFields Formula.P :=
  .attr "bom-ref" true XText.string <|
  .elem (.nlist "components" "component" true X.component) <|
  .elem (.nlist "services" "service" true X.service) <|
  .elem (.nlist "workflows" "workflow" true X.workflow) <|
  .elem (.nlist "properties" "property" true X.property) <|
  .nil

/-- cyclonedx.go:800-806 -/
def X.formula : XCodec Formula := XCodec.struct X.formulaFields Formula.toP Formula.ofP

/-- cyclonedx.go:1006-1010 -/
def X.lifecycleFields : XFields Lifecycle.P :=
  .elem (.plain "name" true X.string) <|
  .elem (.plain "phase" true X.string) <|
  .elem (.plain "description" true X.string) <|
  .nil

/-- cyclonedx.go:1006-1010 -/
def X.lifecycle : XCodec Lifecycle := XCodec.struct X.lifecycleFields Lifecycle.toP Lifecycle.ofP

/-- cyclonedx.go:1594-1600 -/
def X.toolFields : XFields Tool.P :=
  .elem (.plain "vendor" true X.string) <|
  .elem (.plain "name" false X.string) <|
  .elem (.plain "version" true X.string) <|
  .elem (.nlist "hashes" "hash" true X.hash) <|
  .elem (.nlist "externalReferences" "reference" true X.externalReference) <|
  .nil

/-- cyclonedx.go:1594-1600 -/
def X.tool : XCodec Tool := XCodec.struct X.toolFields Tool.toP Tool.ofP

/-- cyclonedx_xml.go:729-733 `toolsChoiceMarshalXML` -/
def X.toolsChoiceFields : XFields (PSlice Tool × PSlice Component × PSlice Service × Unit) :=
  .elem (.list "tool" true X.tool) <|
  .elem (.nlist "components" "component" true X.component) <|
  .elem (.nlist "services" "service" true X.service) <|
  .nil

/-- cyclonedx_xml.go:743-746 `toolsChoiceUnmarshalXML` -/
def X.toolsChoiceRaw : XFields (PSlice Component × PSlice Service × Unit) :=
  .elem (.list "component" true X.component) <|
  .elem (.list "service" true X.service) <|
  .nil

/-- cyclonedx_xml.go:782-810, the body of the loop: the tools, components and services so far. -/
def X.toolsChoiceStep (x : Xml) (st : List Tool × List Component × List Service) :
    Option (List Tool × List Component × List Service) :=
  match x with
  | .text _ => some st
  | .elem name as ks =>
    if name = "tool" then
      (X.tool.dec (.elem name as ks) X.tool.zero).map fun t => (st.1 ++ [t], st.2.1, st.2.2)
    else if name = "components" then
      (X.toolsChoiceRaw.dec (.elem name as ks) X.toolsChoiceRaw.zero).map fun p =>
        if ¬ p.1.isNil then (st.1, p.1.elems, st.2.2) else st
    else if name = "services" then
      (X.toolsChoiceRaw.dec (.elem name as ks) X.toolsChoiceRaw.zero).map fun p =>
        if ¬ p.2.1.isNil then (st.1, st.2.1, p.2.1.elems) else st
    else none

/-- cyclonedx_xml.go:748-832 -/
def X.toolsChoice : XCodec ToolsChoice where
  enc n tc :=
    if ¬ tc.tools.isNil ∧ (¬ tc.components.isNil ∨ ¬ tc.services.isNil) then none
    else if ¬ tc.tools.isNil then
      (XCodec.struct X.toolsChoiceFields id id).enc n (tc.tools, .nil, .nil, ())
    else if ¬ tc.components.isNil ∨ ¬ tc.services.isNil then
      (XCodec.struct X.toolsChoiceFields id id).enc n (.nil, tc.components, tc.services, ())
    else some none
  dec x tc :=
    match XField.decAll X.toolsChoiceStep x.kids ([], [], []) with
    | none => none
    | some (ts, cs, ss) =>
      if ts ≠ [] ∧ (cs ≠ [] ∨ ss ≠ []) then none
      else if ts ≠ [] ∨ cs ≠ [] ∨ ss ≠ [] then
        some { tools := XField.ofList ts, components := XField.ofList cs, services := XField.ofList ss }
      else some tc
  zero := {}
  empty _ := false
  writes tc := !(tc.tools.isNil && tc.components.isNil && tc.services.isNil)
  norm tc :=
    { tools := XField.ofList (XField.normList true X.tool tc.tools.elems),
      components := XField.ofList (XField.normList true X.component tc.components.elems),
      services := XField.ofList (XField.normList true X.service tc.services.elems) }
  good tc := X.toolsChoiceFields.good (tc.tools, tc.components, tc.services, ())

/-- cyclonedx.go:1809-1811 -/
def X.distributionConstraintsFields : XFields DistributionConstraints.P :=
  .elem (.plain "tlp" true X.string) <|
  .nil

/-- cyclonedx.go:1809-1811 -/
def X.distributionConstraints : XCodec DistributionConstraints := XCodec.struct X.distributionConstraintsFields DistributionConstraints.toP DistributionConstraints.ofP

/-- cyclonedx.go:1042-1054 -/
def X.metadataFields : XFields Metadata.P :=
  .elem (.plain "timestamp" true X.string) <|
  .elem (.nlist "lifecycles" "lifecycle" true X.lifecycle) <|
  .elem (.ptr "tools" X.toolsChoice) <|
  .elem (.nlist "authors" "author" true X.organizationalContact) <|
  .elem (.ptr "component" X.component) <|
  .elem (.ptr "manufacture" X.organizationalEntity) <|
  .elem (.ptr "manufacturer" X.organizationalEntity) <|
  .elem (.ptr "supplier" X.organizationalEntity) <|
  .elem (.slice "licenses" X.licenses) <|
  .elem (.nlist "properties" "property" true X.property) <|
  .elem (.ptr "distributionConstraints" X.distributionConstraints) <|
  .nil

/-- cyclonedx.go:1042-1054 -/
def X.metadata : XCodec Metadata := XCodec.struct X.metadataFields Metadata.toP Metadata.ofP

/-- cyclonedx.go:349-352 -/
def X.creditsFields : XFields Credits.P :=
  .elem (.nlist "organizations" "organization" true X.organizationalEntity) <|
  .elem (.nlist "individuals" "individual" true X.organizationalContact) <|
  .nil

/-- cyclonedx.go:349-352 -/
def X.credits : XCodec Credits := XCodec.struct X.creditsFields Credits.toP Credits.ofP

/-- cyclonedx.go:1271-1275 -/
def X.proofOfConceptFields : XFields ProofOfConcept.P :=
  .elem (.plain "reproductionSteps" true X.string) <|
  .elem (.plain "environment" true X.string) <|
  .elem (.nlist "supportingMaterial" "attachment" true X.attachedText) <|
  .nil

/-- cyclonedx.go:1271-1275 -/
def X.proofOfConcept : XCodec ProofOfConcept := XCodec.struct X.proofOfConceptFields ProofOfConcept.toP ProofOfConcept.ofP

/-- cyclonedx.go:1658-1665 -/
def X.vulnerabilityAnalysisFields : XFields VulnerabilityAnalysis.P :=
  .elem (.plain "state" true X.string) <|
  .elem (.plain "justification" true X.string) <|
  .elem (.nlist "responses" "response" true X.string) <|
  .elem (.plain "detail" true X.string) <|
  .elem (.plain "firstIssued" true X.string) <|
  .elem (.plain "lastUpdated" true X.string) <|
  .nil

/-- cyclonedx.go:1658-1665 -/
def X.vulnerabilityAnalysis : XCodec VulnerabilityAnalysis := XCodec.struct X.vulnerabilityAnalysisFields VulnerabilityAnalysis.toP VulnerabilityAnalysis.ofP

/-- cyclonedx.go:1667-1674 -/
def X.vulnerabilityRatingFields : XFields VulnerabilityRating.P :=
  .elem (.ptr "source" X.source) <|
  .elem (.ptr "score" X.f64) <|
  .elem (.plain "severity" true X.string) <|
  .elem (.plain "method" true X.string) <|
  .elem (.plain "vector" true X.string) <|
  .elem (.plain "justification" true X.string) <|
  .nil

/-- cyclonedx.go:1667-1674 -/
def X.vulnerabilityRating : XCodec VulnerabilityRating := XCodec.struct X.vulnerabilityRatingFields VulnerabilityRating.toP VulnerabilityRating.ofP

/-- cyclonedx.go:1676-1679 -/
def X.vulnerabilityReferenceFields : XFields VulnerabilityReference.P :=
  .elem (.plain "id" true X.string) <|
  .elem (.ptr "source" X.source) <|
  .nil

/-- cyclonedx.go:1676-1679 -/
def X.vulnerabilityReference : XCodec VulnerabilityReference := XCodec.struct X.vulnerabilityReferenceFields VulnerabilityReference.toP VulnerabilityReference.ofP

/-- cyclonedx.go:1634-1656 -/
def X.vulnerabilityFields : XFields Vulnerability.P :=
  .attr "bom-ref" true XText.string <|
  .elem (.plain "id" false X.string) <|
  .elem (.ptr "source" X.source) <|
  .elem (.nlist "references" "reference" true X.vulnerabilityReference) <|
  .elem (.nlist "ratings" "rating" true X.vulnerabilityRating) <|
  .elem (.nlist "cwes" "cwe" true X.int) <|
  .elem (.plain "description" true X.string) <|
  .elem (.plain "detail" true X.string) <|
  .elem (.plain "recommendation" true X.string) <|
  .elem (.plain "workaround" true X.string) <|
  .elem (.ptr "proofOfConcept" X.proofOfConcept) <|
  .elem (.nlist "advisories" "advisory" true X.advisory) <|
  .elem (.plain "created" true X.string) <|
  .elem (.plain "published" true X.string) <|
  .elem (.plain "updated" true X.string) <|
  .elem (.plain "rejected" true X.string) <|
  .elem (.ptr "credits" X.credits) <|
  .elem (.ptr "tools" X.toolsChoice) <|
  .elem (.ptr "analysis" X.vulnerabilityAnalysis) <|
  .elem (.nlist "affects" "target" true X.affects) <|
  .elem (.nlist "properties" "property" true X.property) <|
  .nil

/-- cyclonedx.go:1634-1656 -/
def X.vulnerability : XCodec Vulnerability := XCodec.struct X.vulnerabilityFields Vulnerability.toP Vulnerability.ofP

/-- cyclonedx.go:1712-1721 -/
def X.citationFields : XFields Citation.P :=
  .attr "bom-ref" true XText.string <|
  .elem (.nlist "pointers" "pointer" true X.string) <|
  .elem (.nlist "expressions" "expression" true X.string) <|
  .elem (.plain "timestamp" true X.string) <|
  .elem (.ptr "attributedTo" X.bomReference) <|
  .elem (.plain "process" true X.string) <|
  .elem (.plain "note" true X.string) <|
  .skip none <|
  .nil

/-- cyclonedx.go:1712-1721 -/
def X.citation : XCodec Citation := XCodec.struct X.citationFields Citation.toP Citation.ofP

/-- cyclonedx.go:105-131 -/
def X.bomFields : XFields BOM.P :=
  .skip {} <|
  .attr "xmlns" false XText.string <|
  .skip "" <|
  .skip "" <|
  .skip 0 <|
  .attr "serialNumber" true XText.string <|
  .attr "version" false XText.int <|
  .elem (.ptr "metadata" X.metadata) <|
  .elem (.nlist "components" "component" true X.component) <|
  .elem (.nlist "services" "service" true X.service) <|
  .elem (.nlist "externalReferences" "reference" true X.externalReference) <|
  .elem (.nlist "dependencies" "dependency" true X.dependency) <|
  .elem (.nlist "compositions" "composition" true X.composition) <|
  .elem (.nlist "properties" "property" true X.property) <|
  .elem (.nlist "vulnerabilities" "vulnerability" true X.vulnerability) <|
  .elem (.nlist "annotations" "annotation" true X.annotation) <|
  .elem (.nlist "formulation" "formula" true X.formula) <|
  .elem (.ptr "declarations" X.declarations) <|
  .elem (.ptr "definitions" X.definitions) <|
  .elem (.nlist "citations" "citation" true X.citation) <|
  .skip none <|
  .nil

/-- cyclonedx.go:105-131 -/
def X.bom : XCodec BOM := XCodec.struct X.bomFields BOM.toP BOM.ofP

end Verif
