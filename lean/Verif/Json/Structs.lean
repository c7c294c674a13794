import Verif.Model.Types
import Verif.Model.Version
import Verif.Json.Codec
import Verif.Json.Height

/-!
# The JSON codecs of the types of the library

GENERATED by `tools/gen_json.py` from the declarations and the `json` tags of `/repo/cyclonedx.go`, with
the types that have their own `MarshalJSON` or `UnmarshalJSON` (`/repo/cyclonedx_json.go`) written out by
hand in the generator; do not edit by hand.

For a struct `T`, `T.toP` and `T.ofP` collect the fields in a nested product and put them back,
`J.tFields` lists the fields with their tags and `J.t` is the codec.
-/

namespace Verif

variable [FloatIO]

/-- cyclonedx.go:155 `type BOMReference string`; no JSON methods. -/
def J.bomReference : JCodec BOMReference where
  enc r := some (.str r.val)
  dec j a := match j with
    | .null => some a
    | .str s => some ⟨s⟩
    | _ => none
  zero := ⟨""⟩
  empty r := r.val = ""

/-- cyclonedx_json.go:103-136; `json.Unmarshal` calls the method for `null` too, and then fails. -/
def J.specVersion : JCodec Int where
  enc v := some (.str (SpecVersion.str v))
  dec j _ := match j with
    | .str s => specVersionOfString s
    | _ => none
  zero := 0
  empty v := v = 0
  good v := SpecVersion1_0 ≤ v ∧ v ≤ SpecVersion1_7

/-- A local struct with one string field, as the `UnmarshalJSON` methods use to look at one member
before deciding how to decode a value (`mlDatasetChoiceRefJSON` and the variables `peek`). -/
def J.peek (name : String) : JCodec String :=
  JCodec.struct (.field name false JCodec.string .nil) (fun s => (s, ())) (fun p => p.1)

/-- A field of type `*json.RawMessage`: the last member with this name (up to case), nil if it is missing
or `null`. -/
def J.rawMember (name : String) (ms : List (String × Json)) : Option Json :=
  match (selected name ms).getLast? with
  | some .null => none
  | x => x

/-- cyclonedx_json.go:351-363, shared by the five IKEv2 types: a string is the reference, everything else
the struct. -/
def J.ikev2 {σ : Type} (S : JCodec σ) (get : σ → BOMReference) (put : σ → BOMReference → σ) : JCodec σ where
  enc v := if (get v).val ≠ "" then some (.str (get v).val) else S.enc v
  dec j v := match j with
    | .str s => some (put v ⟨s⟩)
    | j => S.dec j v
  zero := S.zero
  empty _ := false
  norm v := if (get v).val ≠ "" then put S.zero (get v) else S.norm v
  good v := (get v).val = "" → S.good v

/-- Go's comparison `property == (Property{})`. -/
def Property.isZero (p : Property) : Bool := p.name = "" ∧ p.value = ""

/-- Go's comparison `componentData == (ComponentData{})`. -/
def ComponentData.isZero (d : ComponentData) : Bool :=
  d.bomRef = "" ∧ d.type = "" ∧ d.name = "" ∧ d.contents.isNone ∧ d.classification = "" ∧
    d.sensitiveData.isNil ∧ d.graphics.isNone ∧ d.description = "" ∧ d.governance.isNone

/-- The fields of `Advisory` as a nested product. -/
abbrev Advisory.P := String × String × Unit
omit [FloatIO] in
/-- Collects the fields of `Advisory`. -/
def Advisory.toP (x : Advisory) : Advisory.P :=
  (x.title, x.url, ())
omit [FloatIO] in
/-- Puts the fields of `Advisory` back. -/
def Advisory.ofP (x : Advisory.P) : Advisory :=
  ⟨x.1, x.2.1⟩
/-- cyclonedx.go:35-38 -/
def J.advisoryFields : JFields Advisory.P :=
  .field "title" true JCodec.string <|
  .field "url" false JCodec.string <|
  .nil

/-- cyclonedx.go:35-38 -/
def J.advisory : JCodec Advisory := JCodec.struct J.advisoryFields Advisory.toP Advisory.ofP

/-- The fields of `AffectedVersions` as a nested product. -/
abbrev AffectedVersions.P := String × String × VulnerabilityStatus × Unit
omit [FloatIO] in
/-- Collects the fields of `AffectedVersions`. -/
def AffectedVersions.toP (x : AffectedVersions) : AffectedVersions.P :=
  (x.version, x.range, x.status, ())
omit [FloatIO] in
/-- Puts the fields of `AffectedVersions` back. -/
def AffectedVersions.ofP (x : AffectedVersions.P) : AffectedVersions :=
  ⟨x.1, x.2.1, x.2.2.1⟩
/-- cyclonedx.go:40-44 -/
def J.affectedVersionsFields : JFields AffectedVersions.P :=
  .field "version" true JCodec.string <|
  .field "range" true JCodec.string <|
  .field "status" false JCodec.string <|
  .nil

/-- cyclonedx.go:40-44 -/
def J.affectedVersions : JCodec AffectedVersions := JCodec.struct J.affectedVersionsFields AffectedVersions.toP AffectedVersions.ofP

/-- The fields of `Affects` as a nested product. -/
abbrev Affects.P := String × (PSlice AffectedVersions) × Unit
omit [FloatIO] in
/-- Collects the fields of `Affects`. -/
def Affects.toP (x : Affects) : Affects.P :=
  (x.ref, x.range, ())
omit [FloatIO] in
/-- Puts the fields of `Affects` back. -/
def Affects.ofP (x : Affects.P) : Affects :=
  ⟨x.1, x.2.1⟩
/-- cyclonedx.go:46-49 -/
def J.affectsFields : JFields Affects.P :=
  .field "ref" false JCodec.string <|
  .field "versions" true (JCodec.pslice J.affectedVersions) <|
  .nil

/-- cyclonedx.go:46-49 -/
def J.affects : JCodec Affects := JCodec.struct J.affectsFields Affects.toP Affects.ofP

/-- The fields of `AttachedText` as a nested product. -/
abbrev AttachedText.P := String × String × String × Unit
omit [FloatIO] in
/-- Collects the fields of `AttachedText`. -/
def AttachedText.toP (x : AttachedText) : AttachedText.P :=
  (x.content, x.contentType, x.encoding, ())
omit [FloatIO] in
/-- Puts the fields of `AttachedText` back. -/
def AttachedText.ofP (x : AttachedText.P) : AttachedText :=
  ⟨x.1, x.2.1, x.2.2.1⟩
/-- cyclonedx.go:73-77 -/
def J.attachedTextFields : JFields AttachedText.P :=
  .field "content" false JCodec.string <|
  .field "contentType" true JCodec.string <|
  .field "encoding" true JCodec.string <|
  .nil

/-- cyclonedx.go:73-77 -/
def J.attachedText : JCodec AttachedText := JCodec.struct J.attachedTextFields AttachedText.toP AttachedText.ofP

/-- The fields of `Property` as a nested product. -/
abbrev Property.P := String × String × Unit
omit [FloatIO] in
/-- Collects the fields of `Property`. -/
def Property.toP (x : Property) : Property.P :=
  (x.name, x.value, ())
omit [FloatIO] in
/-- Puts the fields of `Property` back. -/
def Property.ofP (x : Property.P) : Property :=
  ⟨x.1, x.2.1⟩
/-- cyclonedx.go:1277-1280 -/
def J.propertyFields : JFields Property.P :=
  .field "name" false JCodec.string <|
  .field "value" false JCodec.string <|
  .nil

/-- cyclonedx.go:1277-1280 -/
def J.property : JCodec Property := JCodec.struct J.propertyFields Property.toP Property.ofP

/-- The fields of `ComponentDataContents` as a nested product. -/
abbrev ComponentDataContents.P := (Option AttachedText) × String × (PSlice Property) × Unit
omit [FloatIO] in
/-- Collects the fields of `ComponentDataContents`. -/
def ComponentDataContents.toP (x : ComponentDataContents) : ComponentDataContents.P :=
  (x.attachment, x.url, x.properties, ())
omit [FloatIO] in
/-- Puts the fields of `ComponentDataContents` back. -/
def ComponentDataContents.ofP (x : ComponentDataContents.P) : ComponentDataContents :=
  ⟨x.1, x.2.1, x.2.2.1⟩
/-- cyclonedx.go:290-294 -/
def J.componentDataContentsFields : JFields ComponentDataContents.P :=
  .field "attachment" true (JCodec.option J.attachedText) <|
  .field "url" true JCodec.string <|
  .field "properties" true (JCodec.pslice J.property) <|
  .nil

/-- cyclonedx.go:290-294 -/
def J.componentDataContents : JCodec ComponentDataContents := JCodec.struct J.componentDataContentsFields ComponentDataContents.toP ComponentDataContents.ofP

/-- The fields of `ComponentDataGraphic` as a nested product. -/
abbrev ComponentDataGraphic.P := String × (Option AttachedText) × Unit
omit [FloatIO] in
/-- Collects the fields of `ComponentDataGraphic`. -/
def ComponentDataGraphic.toP (x : ComponentDataGraphic) : ComponentDataGraphic.P :=
  (x.name, x.image, ())
omit [FloatIO] in
/-- Puts the fields of `ComponentDataGraphic` back. -/
def ComponentDataGraphic.ofP (x : ComponentDataGraphic.P) : ComponentDataGraphic :=
  ⟨x.1, x.2.1⟩
/-- cyclonedx.go:301-304 -/
def J.componentDataGraphicFields : JFields ComponentDataGraphic.P :=
  .field "name" true JCodec.string <|
  .field "image" true (JCodec.option J.attachedText) <|
  .nil

/-- cyclonedx.go:301-304 -/
def J.componentDataGraphic : JCodec ComponentDataGraphic := JCodec.struct J.componentDataGraphicFields ComponentDataGraphic.toP ComponentDataGraphic.ofP

/-- The fields of `ComponentDataGraphics` as a nested product. -/
abbrev ComponentDataGraphics.P := String × (PSlice ComponentDataGraphic) × Unit
omit [FloatIO] in
/-- Collects the fields of `ComponentDataGraphics`. -/
def ComponentDataGraphics.toP (x : ComponentDataGraphics) : ComponentDataGraphics.P :=
  (x.description, x.collection, ())
omit [FloatIO] in
/-- Puts the fields of `ComponentDataGraphics` back. -/
def ComponentDataGraphics.ofP (x : ComponentDataGraphics.P) : ComponentDataGraphics :=
  ⟨x.1, x.2.1⟩
/-- cyclonedx.go:306-309 -/
def J.componentDataGraphicsFields : JFields ComponentDataGraphics.P :=
  .field "description" true JCodec.string <|
  .field "collection" true (JCodec.pslice J.componentDataGraphic) <|
  .nil

/-- cyclonedx.go:306-309 -/
def J.componentDataGraphics : JCodec ComponentDataGraphics := JCodec.struct J.componentDataGraphicsFields ComponentDataGraphics.toP ComponentDataGraphics.ofP

/-- The fields of `OrganizationalContact` as a nested product. -/
abbrev OrganizationalContact.P := String × String × String × String × Unit
omit [FloatIO] in
/-- Collects the fields of `OrganizationalContact`. -/
def OrganizationalContact.toP (x : OrganizationalContact) : OrganizationalContact.P :=
  (x.bomRef, x.name, x.email, x.phone, ())
omit [FloatIO] in
/-- Puts the fields of `OrganizationalContact` back. -/
def OrganizationalContact.ofP (x : OrganizationalContact.P) : OrganizationalContact :=
  ⟨x.1, x.2.1, x.2.2.1, x.2.2.2.1⟩
/-- cyclonedx.go:1211-1216 -/
def J.organizationalContactFields : JFields OrganizationalContact.P :=
  .field "bom-ref" true JCodec.string <|
  .field "name" true JCodec.string <|
  .field "email" true JCodec.string <|
  .field "phone" true JCodec.string <|
  .nil

/-- cyclonedx.go:1211-1216 -/
def J.organizationalContact : JCodec OrganizationalContact := JCodec.struct J.organizationalContactFields OrganizationalContact.toP OrganizationalContact.ofP

/-- The fields of `PostalAddress` as a nested product. -/
abbrev PostalAddress.P := String × String × String × String × String × String × String × Unit
omit [FloatIO] in
/-- Collects the fields of `PostalAddress`. -/
def PostalAddress.toP (x : PostalAddress) : PostalAddress.P :=
  (x.bomRef, x.country, x.region, x.locality, x.postOfficeBoxNumber, x.postalCode, x.streetAddress, ())
omit [FloatIO] in
/-- Puts the fields of `PostalAddress` back. -/
def PostalAddress.ofP (x : PostalAddress.P) : PostalAddress :=
  ⟨x.1, x.2.1, x.2.2.1, x.2.2.2.1, x.2.2.2.2.1, x.2.2.2.2.2.1, x.2.2.2.2.2.2.1⟩
/-- cyclonedx.go:1261-1269 -/
def J.postalAddressFields : JFields PostalAddress.P :=
  .field "bom-ref" true JCodec.string <|
  .field "country" true JCodec.string <|
  .field "region" true JCodec.string <|
  .field "locality" true JCodec.string <|
  .field "postOfficeBoxNumber" true JCodec.string <|
  .field "postalCode" true JCodec.string <|
  .field "streetAddress" true JCodec.string <|
  .nil

/-- cyclonedx.go:1261-1269 -/
def J.postalAddress : JCodec PostalAddress := JCodec.struct J.postalAddressFields PostalAddress.toP PostalAddress.ofP

/-- The fields of `OrganizationalEntity` as a nested product. -/
abbrev OrganizationalEntity.P := String × String × (Option PostalAddress) × (PSlice String) × (PSlice OrganizationalContact) × Unit
omit [FloatIO] in
/-- Collects the fields of `OrganizationalEntity`. -/
def OrganizationalEntity.toP (x : OrganizationalEntity) : OrganizationalEntity.P :=
  (x.bomRef, x.name, x.address, x.url, x.contact, ())
omit [FloatIO] in
/-- Puts the fields of `OrganizationalEntity` back. -/
def OrganizationalEntity.ofP (x : OrganizationalEntity.P) : OrganizationalEntity :=
  ⟨x.1, x.2.1, x.2.2.1, x.2.2.2.1, x.2.2.2.2.1⟩
/-- cyclonedx.go:1218-1224 -/
def J.organizationalEntityFields : JFields OrganizationalEntity.P :=
  .field "bom-ref" true JCodec.string <|
  .field "name" false JCodec.string <|
  .field "address" true (JCodec.option J.postalAddress) <|
  .field "url" true (JCodec.pslice JCodec.string) <|
  .field "contact" true (JCodec.pslice J.organizationalContact) <|
  .nil

/-- cyclonedx.go:1218-1224 -/
def J.organizationalEntity : JCodec OrganizationalEntity := JCodec.struct J.organizationalEntityFields OrganizationalEntity.toP OrganizationalEntity.ofP

/-- The fields of `ComponentDataGovernanceResponsibleParty` as a nested product. -/
abbrev ComponentDataGovernanceResponsibleParty.P := (Option OrganizationalEntity) × (Option OrganizationalContact) × Unit
omit [FloatIO] in
/-- Collects the fields of `ComponentDataGovernanceResponsibleParty`. -/
def ComponentDataGovernanceResponsibleParty.toP (x : ComponentDataGovernanceResponsibleParty) : ComponentDataGovernanceResponsibleParty.P :=
  (x.organization, x.contact, ())
omit [FloatIO] in
/-- Puts the fields of `ComponentDataGovernanceResponsibleParty` back. -/
def ComponentDataGovernanceResponsibleParty.ofP (x : ComponentDataGovernanceResponsibleParty.P) : ComponentDataGovernanceResponsibleParty :=
  ⟨x.1, x.2.1⟩
/-- cyclonedx.go:296-299 -/
def J.componentDataGovernanceResponsiblePartyFields : JFields ComponentDataGovernanceResponsibleParty.P :=
  .field "organization" true (JCodec.option J.organizationalEntity) <|
  .field "contact" true (JCodec.option J.organizationalContact) <|
  .nil

/-- cyclonedx.go:296-299 -/
def J.componentDataGovernanceResponsibleParty : JCodec ComponentDataGovernanceResponsibleParty := JCodec.struct J.componentDataGovernanceResponsiblePartyFields ComponentDataGovernanceResponsibleParty.toP ComponentDataGovernanceResponsibleParty.ofP

/-- The fields of `DataGovernance` as a nested product. -/
abbrev DataGovernance.P := (PSlice ComponentDataGovernanceResponsibleParty) × (PSlice ComponentDataGovernanceResponsibleParty) × (PSlice ComponentDataGovernanceResponsibleParty) × Unit
omit [FloatIO] in
/-- Collects the fields of `DataGovernance`. -/
def DataGovernance.toP (x : DataGovernance) : DataGovernance.P :=
  (x.custodians, x.stewards, x.owners, ())
omit [FloatIO] in
/-- Puts the fields of `DataGovernance` back. -/
def DataGovernance.ofP (x : DataGovernance.P) : DataGovernance :=
  ⟨x.1, x.2.1, x.2.2.1⟩
/-- cyclonedx.go:570-574 -/
def J.dataGovernanceFields : JFields DataGovernance.P :=
  .field "custodians" true (JCodec.pslice J.componentDataGovernanceResponsibleParty) <|
  .field "stewards" true (JCodec.pslice J.componentDataGovernanceResponsibleParty) <|
  .field "owners" true (JCodec.pslice J.componentDataGovernanceResponsibleParty) <|
  .nil

/-- cyclonedx.go:570-574 -/
def J.dataGovernance : JCodec DataGovernance := JCodec.struct J.dataGovernanceFields DataGovernance.toP DataGovernance.ofP

/-- The fields of `ComponentData` as a nested product. -/
abbrev ComponentData.P := String × ComponentDataType × String × (Option ComponentDataContents) × String × (PSlice String) × (Option ComponentDataGraphics) × String × (Option DataGovernance) × Unit
omit [FloatIO] in
/-- Collects the fields of `ComponentData`. -/
def ComponentData.toP (x : ComponentData) : ComponentData.P :=
  (x.bomRef, x.type, x.name, x.contents, x.classification, x.sensitiveData, x.graphics, x.description, x.governance, ())
omit [FloatIO] in
/-- Puts the fields of `ComponentData` back. -/
def ComponentData.ofP (x : ComponentData.P) : ComponentData :=
  ⟨x.1, x.2.1, x.2.2.1, x.2.2.2.1, x.2.2.2.2.1, x.2.2.2.2.2.1, x.2.2.2.2.2.2.1, x.2.2.2.2.2.2.2.1, x.2.2.2.2.2.2.2.2.1⟩
/-- cyclonedx.go:278-288 -/
def J.componentDataFields : JFields ComponentData.P :=
  .field "bom-ref" true JCodec.string <|
  .field "type" true JCodec.string <|
  .field "name" true JCodec.string <|
  .field "contents" true (JCodec.option J.componentDataContents) <|
  .field "classification" true JCodec.string <|
  .field "sensitiveData" true (JCodec.pslice JCodec.string) <|
  .field "graphics" true (JCodec.option J.componentDataGraphics) <|
  .field "description" true JCodec.string <|
  .field "governance" true (JCodec.option J.dataGovernance) <|
  .nil

/-- cyclonedx.go:278-288 -/
def J.componentData : JCodec ComponentData := JCodec.struct J.componentDataFields ComponentData.toP ComponentData.ofP

/-- The fields of `Hash` as a nested product. -/
abbrev Hash.P := HashAlgorithm × String × Unit
omit [FloatIO] in
/-- Collects the fields of `Hash`. -/
def Hash.toP (x : Hash) : Hash.P :=
  (x.algorithm, x.value, ())
omit [FloatIO] in
/-- Puts the fields of `Hash` back. -/
def Hash.ofP (x : Hash.P) : Hash :=
  ⟨x.1, x.2.1⟩
/-- cyclonedx.go:808-811 -/
def J.hashFields : JFields Hash.P :=
  .field "alg" false JCodec.string <|
  .field "content" false JCodec.string <|
  .nil

/-- cyclonedx.go:808-811 -/
def J.hash : JCodec Hash := JCodec.struct J.hashFields Hash.toP Hash.ofP

/-- The fields of `RelatedCryptographicAsset` as a nested product. -/
abbrev RelatedCryptographicAsset.P := String × String × Unit
omit [FloatIO] in
/-- Collects the fields of `RelatedCryptographicAsset`. -/
def RelatedCryptographicAsset.toP (x : RelatedCryptographicAsset) : RelatedCryptographicAsset.P :=
  (x.type, x.ref, ())
omit [FloatIO] in
/-- Puts the fields of `RelatedCryptographicAsset` back. -/
def RelatedCryptographicAsset.ofP (x : RelatedCryptographicAsset.P) : RelatedCryptographicAsset :=
  ⟨x.1, x.2.1⟩
/-- cyclonedx.go:1866-1869 -/
def J.relatedCryptographicAssetFields : JFields RelatedCryptographicAsset.P :=
  .field "type" true JCodec.string <|
  .field "ref" true JCodec.string <|
  .nil

/-- cyclonedx.go:1866-1869 -/
def J.relatedCryptographicAsset : JCodec RelatedCryptographicAsset := JCodec.struct J.relatedCryptographicAssetFields RelatedCryptographicAsset.toP RelatedCryptographicAsset.ofP

/-- The fields of `PredefinedCertificateState` as a nested product. -/
abbrev PredefinedCertificateState.P := CertificateStateType × String × Unit
omit [FloatIO] in
/-- Collects the fields of `PredefinedCertificateState`. -/
def PredefinedCertificateState.toP (x : PredefinedCertificateState) : PredefinedCertificateState.P :=
  (x.state, x.reason, ())
omit [FloatIO] in
/-- Puts the fields of `PredefinedCertificateState` back. -/
def PredefinedCertificateState.ofP (x : PredefinedCertificateState.P) : PredefinedCertificateState :=
  ⟨x.1, x.2.1⟩
/-- cyclonedx.go:1880-1883 -/
def J.predefinedCertificateStateFields : JFields PredefinedCertificateState.P :=
  .field "state" false JCodec.string <|
  .field "reason" true JCodec.string <|
  .nil

/-- cyclonedx.go:1880-1883 -/
def J.predefinedCertificateState : JCodec PredefinedCertificateState := JCodec.struct J.predefinedCertificateStateFields PredefinedCertificateState.toP PredefinedCertificateState.ofP

/-- The fields of `CustomCertificateState` as a nested product. -/
abbrev CustomCertificateState.P := String × String × String × Unit
omit [FloatIO] in
/-- Collects the fields of `CustomCertificateState`. -/
def CustomCertificateState.toP (x : CustomCertificateState) : CustomCertificateState.P :=
  (x.name, x.description, x.reason, ())
omit [FloatIO] in
/-- Puts the fields of `CustomCertificateState` back. -/
def CustomCertificateState.ofP (x : CustomCertificateState.P) : CustomCertificateState :=
  ⟨x.1, x.2.1, x.2.2.1⟩
/-- cyclonedx.go:1886-1890 -/
def J.customCertificateStateFields : JFields CustomCertificateState.P :=
  .field "name" false JCodec.string <|
  .field "description" true JCodec.string <|
  .field "reason" true JCodec.string <|
  .nil

/-- cyclonedx.go:1886-1890 -/
def J.customCertificateState : JCodec CustomCertificateState := JCodec.struct J.customCertificateStateFields CustomCertificateState.toP CustomCertificateState.ofP

/-- cyclonedx_json.go:233-266 -/
def J.certificateState : JCodec CertificateState where
  enc c :=
    match c.predefined, c.custom with
    | some _, some _ => none
    | some p, none => J.predefinedCertificateState.enc p
    | none, some q => J.customCertificateState.enc q
    | none, none => some (.obj [])
  dec j c :=
    match (J.peek "state").dec j "" with
    | none => none
    | some s =>
      if s ≠ "" then
        match J.predefinedCertificateState.dec j {} with
        | none => none
        | some p => some { c with predefined := some p }
      else
        match J.customCertificateState.dec j {} with
        | none => none
        | some q => some { c with custom := some q }
  zero := {}
  empty _ := false
  norm c :=
    match c.predefined, c.custom with
    | some p, _ => { predefined := some (J.predefinedCertificateState.norm p) }
    | none, some q => { custom := some (J.customCertificateState.norm q) }
    | none, none => { custom := some {} }
  good c :=
    match c.predefined, c.custom with
    | some p, _ => p.state ≠ "" ∧ J.predefinedCertificateState.good p
    | none, some q => J.customCertificateState.good q
    | none, none => True

/-- The fields of `CommonCertificateExtension` as a nested product. -/
abbrev CommonCertificateExtension.P := CertificateExtensionName × String × Unit
omit [FloatIO] in
/-- Collects the fields of `CommonCertificateExtension`. -/
def CommonCertificateExtension.toP (x : CommonCertificateExtension) : CommonCertificateExtension.P :=
  (x.name, x.value, ())
omit [FloatIO] in
/-- Puts the fields of `CommonCertificateExtension` back. -/
def CommonCertificateExtension.ofP (x : CommonCertificateExtension.P) : CommonCertificateExtension :=
  ⟨x.1, x.2.1⟩
/-- cyclonedx.go:1913-1916 -/
def J.commonCertificateExtensionFields : JFields CommonCertificateExtension.P :=
  .field "commonExtensionName" false JCodec.string <|
  .field "commonExtensionValue" true JCodec.string <|
  .nil

/-- cyclonedx.go:1913-1916 -/
def J.commonCertificateExtension : JCodec CommonCertificateExtension := JCodec.struct J.commonCertificateExtensionFields CommonCertificateExtension.toP CommonCertificateExtension.ofP

/-- The fields of `CustomCertificateExtension` as a nested product. -/
abbrev CustomCertificateExtension.P := String × String × Unit
omit [FloatIO] in
/-- Collects the fields of `CustomCertificateExtension`. -/
def CustomCertificateExtension.toP (x : CustomCertificateExtension) : CustomCertificateExtension.P :=
  (x.name, x.value, ())
omit [FloatIO] in
/-- Puts the fields of `CustomCertificateExtension` back. -/
def CustomCertificateExtension.ofP (x : CustomCertificateExtension.P) : CustomCertificateExtension :=
  ⟨x.1, x.2.1⟩
/-- cyclonedx.go:1919-1922 -/
def J.customCertificateExtensionFields : JFields CustomCertificateExtension.P :=
  .field "customExtensionName" false JCodec.string <|
  .field "customExtensionValue" true JCodec.string <|
  .nil

/-- cyclonedx.go:1919-1922 -/
def J.customCertificateExtension : JCodec CustomCertificateExtension := JCodec.struct J.customCertificateExtensionFields CustomCertificateExtension.toP CustomCertificateExtension.ofP

/-- cyclonedx_json.go:268-301 -/
def J.certificateExtension : JCodec CertificateExtension where
  enc c :=
    match c.common, c.custom with
    | some _, some _ => none
    | some p, none => J.commonCertificateExtension.enc p
    | none, some q => J.customCertificateExtension.enc q
    | none, none => some (.obj [])
  dec j c :=
    match (J.peek "commonExtensionName").dec j "" with
    | none => none
    | some s =>
      if s ≠ "" then
        match J.commonCertificateExtension.dec j {} with
        | none => none
        | some p => some { c with common := some p }
      else
        match J.customCertificateExtension.dec j {} with
        | none => none
        | some q => some { c with custom := some q }
  zero := {}
  empty _ := false
  norm c :=
    match c.common, c.custom with
    | some p, _ => { common := some (J.commonCertificateExtension.norm p) }
    | none, some q => { custom := some (J.customCertificateExtension.norm q) }
    | none, none => { custom := some {} }
  good c :=
    match c.common, c.custom with
    | some p, _ => p.name ≠ "" ∧ J.commonCertificateExtension.good p
    | none, some q => J.customCertificateExtension.good q
    | none, none => True

/-- The fields of `CertificateProperties` as a nested product. -/
abbrev CertificateProperties.P := String × String × String × String × String × BOMReference × BOMReference × String × String × String × (Option Hash) × (PSlice CertificateState) × (PSlice CertificateExtension) × (PSlice RelatedCryptographicAsset) × String × String × String × String × String × Unit
omit [FloatIO] in
/-- Collects the fields of `CertificateProperties`. -/
def CertificateProperties.toP (x : CertificateProperties) : CertificateProperties.P :=
  (x.serialNumber, x.subjectName, x.issuerName, x.notValidBefore, x.notValidAfter, x.signatureAlgorithmRef, x.subjectPublicKeyRef, x.certificateFormat, x.certificateExtension, x.certificateFileExtension, x.fingerprint, x.certificateState, x.certificateExtensions, x.relatedCryptographicAssets, x.creationDate, x.activationDate, x.deactivationDate, x.revocationDate, x.destructionDate, ())
omit [FloatIO] in
/-- Puts the fields of `CertificateProperties` back. -/
def CertificateProperties.ofP (x : CertificateProperties.P) : CertificateProperties :=
  ⟨x.1, x.2.1, x.2.2.1, x.2.2.2.1, x.2.2.2.2.1, x.2.2.2.2.2.1, x.2.2.2.2.2.2.1, x.2.2.2.2.2.2.2.1, x.2.2.2.2.2.2.2.2.1, x.2.2.2.2.2.2.2.2.2.1, x.2.2.2.2.2.2.2.2.2.2.1, x.2.2.2.2.2.2.2.2.2.2.2.1, x.2.2.2.2.2.2.2.2.2.2.2.2.1, x.2.2.2.2.2.2.2.2.2.2.2.2.2.1, x.2.2.2.2.2.2.2.2.2.2.2.2.2.2.1, x.2.2.2.2.2.2.2.2.2.2.2.2.2.2.2.1, x.2.2.2.2.2.2.2.2.2.2.2.2.2.2.2.2.1, x.2.2.2.2.2.2.2.2.2.2.2.2.2.2.2.2.2.1, x.2.2.2.2.2.2.2.2.2.2.2.2.2.2.2.2.2.2.1⟩
/-- cyclonedx.go:171-191 -/
def J.certificatePropertiesFields : JFields CertificateProperties.P :=
  .field "serialNumber" true JCodec.string <|
  .field "subjectName" true JCodec.string <|
  .field "issuerName" true JCodec.string <|
  .field "notValidBefore" true JCodec.string <|
  .field "notValidAfter" true JCodec.string <|
  .field "signatureAlgorithmRef" true J.bomReference <|
  .field "subjectPublicKeyRef" true J.bomReference <|
  .field "certificateFormat" true JCodec.string <|
  .field "certificateExtension" true JCodec.string <|
  .field "certificateFileExtension" true JCodec.string <|
  .field "fingerprint" true (JCodec.option J.hash) <|
  .field "certificateState" true (JCodec.pslice J.certificateState) <|
  .field "certificateExtensions" true (JCodec.pslice J.certificateExtension) <|
  .field "relatedCryptographicAssets" true (JCodec.pslice J.relatedCryptographicAsset) <|
  .field "creationDate" true JCodec.string <|
  .field "activationDate" true JCodec.string <|
  .field "deactivationDate" true JCodec.string <|
  .field "revocationDate" true JCodec.string <|
  .field "destructionDate" true JCodec.string <|
  .nil

/-- cyclonedx.go:171-191 -/
def J.certificateProperties : JCodec CertificateProperties := JCodec.struct J.certificatePropertiesFields CertificateProperties.toP CertificateProperties.ofP

/-- The fields of `CryptoAlgorithmProperties` as a nested product. -/
abbrev CryptoAlgorithmProperties.P := CryptoPrimitive × String × String × String × String × CryptoExecutionEnvironment × ImplementationPlatform × (PSlice CryptoCertificationLevel) × CryptoAlgorithmMode × CryptoPadding × (PSlice CryptoFunction) × (Option Int) × (Option Int) × Unit
omit [FloatIO] in
/-- Collects the fields of `CryptoAlgorithmProperties`. -/
def CryptoAlgorithmProperties.toP (x : CryptoAlgorithmProperties) : CryptoAlgorithmProperties.P :=
  (x.primitive, x.parameterSetIdentifier, x.algorithmFamily, x.curve, x.ellipticCurve, x.executionEnvironment, x.implementationPlatform, x.certificationLevel, x.mode, x.padding, x.cryptoFunctions, x.classicalSecurityLevel, x.nistQuantumSecurityLevel, ())
omit [FloatIO] in
/-- Puts the fields of `CryptoAlgorithmProperties` back. -/
def CryptoAlgorithmProperties.ofP (x : CryptoAlgorithmProperties.P) : CryptoAlgorithmProperties :=
  ⟨x.1, x.2.1, x.2.2.1, x.2.2.2.1, x.2.2.2.2.1, x.2.2.2.2.2.1, x.2.2.2.2.2.2.1, x.2.2.2.2.2.2.2.1, x.2.2.2.2.2.2.2.2.1, x.2.2.2.2.2.2.2.2.2.1, x.2.2.2.2.2.2.2.2.2.2.1, x.2.2.2.2.2.2.2.2.2.2.2.1, x.2.2.2.2.2.2.2.2.2.2.2.2.1⟩
/-- cyclonedx.go:368-382 -/
def J.cryptoAlgorithmPropertiesFields : JFields CryptoAlgorithmProperties.P :=
  .field "primitive" true JCodec.string <|
  .field "parameterSetIdentifier" true JCodec.string <|
  .field "algorithmFamily" true JCodec.string <|
  .field "curve" true JCodec.string <|
  .field "ellipticCurve" true JCodec.string <|
  .field "executionEnvironment" true JCodec.string <|
  .field "implementationPlatform" true JCodec.string <|
  .field "certificationLevel" true (JCodec.pslice JCodec.string) <|
  .field "mode" true JCodec.string <|
  .field "padding" true JCodec.string <|
  .field "cryptoFunctions" true (JCodec.pslice JCodec.string) <|
  .field "classicalSecurityLevel" true (JCodec.option JCodec.int) <|
  .field "nistQuantumSecurityLevel" true (JCodec.option JCodec.int) <|
  .nil

/-- cyclonedx.go:368-382 -/
def J.cryptoAlgorithmProperties : JCodec CryptoAlgorithmProperties := JCodec.struct J.cryptoAlgorithmPropertiesFields CryptoAlgorithmProperties.toP CryptoAlgorithmProperties.ofP

/-- The fields of `CipherSuite` as a nested product. -/
abbrev CipherSuite.P := String × (PSlice BOMReference) × (PSlice String) × (PSlice String) × (PSlice String) × Unit
omit [FloatIO] in
/-- Collects the fields of `CipherSuite`. -/
def CipherSuite.toP (x : CipherSuite) : CipherSuite.P :=
  (x.name, x.algorithms, x.identifiers, x.tlsGroups, x.tlsSignatureSchemes, ())
omit [FloatIO] in
/-- Puts the fields of `CipherSuite` back. -/
def CipherSuite.ofP (x : CipherSuite.P) : CipherSuite :=
  ⟨x.1, x.2.1, x.2.2.1, x.2.2.2.1, x.2.2.2.2.1⟩
/-- cyclonedx.go:205-211 -/
def J.cipherSuiteFields : JFields CipherSuite.P :=
  .field "name" true JCodec.string <|
  .field "algorithms" true (JCodec.pslice J.bomReference) <|
  .field "identifiers" true (JCodec.pslice JCodec.string) <|
  .field "tlsGroups" true (JCodec.pslice JCodec.string) <|
  .field "tlsSignatureSchemes" true (JCodec.pslice JCodec.string) <|
  .nil

/-- cyclonedx.go:205-211 -/
def J.cipherSuite : JCodec CipherSuite := JCodec.struct J.cipherSuiteFields CipherSuite.toP CipherSuite.ofP

/-- The fields of `IKEv2Auth` as a nested product. -/
abbrev IKEv2Auth.P := BOMReference × String × String × Unit
omit [FloatIO] in
/-- Collects the fields of `IKEv2Auth`. -/
def IKEv2Auth.toP (x : IKEv2Auth) : IKEv2Auth.P :=
  (x.bomRef, x.name, x.algorithm, ())
omit [FloatIO] in
/-- Puts the fields of `IKEv2Auth` back. -/
def IKEv2Auth.ofP (x : IKEv2Auth.P) : IKEv2Auth :=
  ⟨x.1, x.2.1, x.2.2.1⟩
/-- cyclonedx.go:1826-1830 -/
def J.ikev2AuthFields : JFields IKEv2Auth.P :=
  .skip ⟨""⟩ <|
  .field "name" true JCodec.string <|
  .field "algorithm" true JCodec.string <|
  .nil

/-- cyclonedx.go:1826-1830, cyclonedx_json.go:365-373 -/
def J.ikev2Auth : JCodec IKEv2Auth :=
  J.ikev2 (JCodec.struct J.ikev2AuthFields IKEv2Auth.toP IKEv2Auth.ofP) (·.bomRef) (fun v r => { v with bomRef := r })

/-- The fields of `IKEv2Enc` as a nested product. -/
abbrev IKEv2Enc.P := BOMReference × String × (Option Int) × String × Unit
omit [FloatIO] in
/-- Collects the fields of `IKEv2Enc`. -/
def IKEv2Enc.toP (x : IKEv2Enc) : IKEv2Enc.P :=
  (x.bomRef, x.name, x.keyLength, x.algorithm, ())
omit [FloatIO] in
/-- Puts the fields of `IKEv2Enc` back. -/
def IKEv2Enc.ofP (x : IKEv2Enc.P) : IKEv2Enc :=
  ⟨x.1, x.2.1, x.2.2.1, x.2.2.2.1⟩
/-- cyclonedx.go:1834-1839 -/
def J.ikev2EncFields : JFields IKEv2Enc.P :=
  .skip ⟨""⟩ <|
  .field "name" true JCodec.string <|
  .field "keyLength" true (JCodec.option JCodec.int) <|
  .field "algorithm" true JCodec.string <|
  .nil

/-- cyclonedx.go:1834-1839, cyclonedx_json.go:375-383 -/
def J.ikev2Enc : JCodec IKEv2Enc :=
  J.ikev2 (JCodec.struct J.ikev2EncFields IKEv2Enc.toP IKEv2Enc.ofP) (·.bomRef) (fun v r => { v with bomRef := r })

/-- The fields of `IKEv2Integ` as a nested product. -/
abbrev IKEv2Integ.P := BOMReference × String × String × Unit
omit [FloatIO] in
/-- Collects the fields of `IKEv2Integ`. -/
def IKEv2Integ.toP (x : IKEv2Integ) : IKEv2Integ.P :=
  (x.bomRef, x.name, x.algorithm, ())
omit [FloatIO] in
/-- Puts the fields of `IKEv2Integ` back. -/
def IKEv2Integ.ofP (x : IKEv2Integ.P) : IKEv2Integ :=
  ⟨x.1, x.2.1, x.2.2.1⟩
/-- cyclonedx.go:1843-1847 -/
def J.ikev2IntegFields : JFields IKEv2Integ.P :=
  .skip ⟨""⟩ <|
  .field "name" true JCodec.string <|
  .field "algorithm" true JCodec.string <|
  .nil

/-- cyclonedx.go:1843-1847, cyclonedx_json.go:385-393 -/
def J.ikev2Integ : JCodec IKEv2Integ :=
  J.ikev2 (JCodec.struct J.ikev2IntegFields IKEv2Integ.toP IKEv2Integ.ofP) (·.bomRef) (fun v r => { v with bomRef := r })

/-- The fields of `IKEv2Ke` as a nested product. -/
abbrev IKEv2Ke.P := BOMReference × (Option Int) × String × Unit
omit [FloatIO] in
/-- Collects the fields of `IKEv2Ke`. -/
def IKEv2Ke.toP (x : IKEv2Ke) : IKEv2Ke.P :=
  (x.bomRef, x.group, x.algorithm, ())
omit [FloatIO] in
/-- Puts the fields of `IKEv2Ke` back. -/
def IKEv2Ke.ofP (x : IKEv2Ke.P) : IKEv2Ke :=
  ⟨x.1, x.2.1, x.2.2.1⟩
/-- cyclonedx.go:1851-1855 -/
def J.ikev2KeFields : JFields IKEv2Ke.P :=
  .skip ⟨""⟩ <|
  .field "group" true (JCodec.option JCodec.int) <|
  .field "algorithm" true JCodec.string <|
  .nil

/-- cyclonedx.go:1851-1855, cyclonedx_json.go:395-403 -/
def J.ikev2Ke : JCodec IKEv2Ke :=
  J.ikev2 (JCodec.struct J.ikev2KeFields IKEv2Ke.toP IKEv2Ke.ofP) (·.bomRef) (fun v r => { v with bomRef := r })

/-- The fields of `IKEv2Prf` as a nested product. -/
abbrev IKEv2Prf.P := BOMReference × String × String × Unit
omit [FloatIO] in
/-- Collects the fields of `IKEv2Prf`. -/
def IKEv2Prf.toP (x : IKEv2Prf) : IKEv2Prf.P :=
  (x.bomRef, x.name, x.algorithm, ())
omit [FloatIO] in
/-- Puts the fields of `IKEv2Prf` back. -/
def IKEv2Prf.ofP (x : IKEv2Prf.P) : IKEv2Prf :=
  ⟨x.1, x.2.1, x.2.2.1⟩
/-- cyclonedx.go:1859-1863 -/
def J.ikev2PrfFields : JFields IKEv2Prf.P :=
  .skip ⟨""⟩ <|
  .field "name" true JCodec.string <|
  .field "algorithm" true JCodec.string <|
  .nil

/-- cyclonedx.go:1859-1863, cyclonedx_json.go:405-413 -/
def J.ikev2Prf : JCodec IKEv2Prf :=
  J.ikev2 (JCodec.struct J.ikev2PrfFields IKEv2Prf.toP IKEv2Prf.ofP) (·.bomRef) (fun v r => { v with bomRef := r })

/-- The fields of `IKEv2TransformTypes` as a nested product. -/
abbrev IKEv2TransformTypes.P := (PSlice IKEv2Enc) × (PSlice IKEv2Prf) × (PSlice IKEv2Integ) × (PSlice IKEv2Ke) × Bool × (PSlice IKEv2Auth) × Unit
omit [FloatIO] in
/-- Collects the fields of `IKEv2TransformTypes`. -/
def IKEv2TransformTypes.toP (x : IKEv2TransformTypes) : IKEv2TransformTypes.P :=
  (x.encr, x.prf, x.integ, x.ke, x.esn, x.auth, ())
omit [FloatIO] in
/-- Puts the fields of `IKEv2TransformTypes` back. -/
def IKEv2TransformTypes.ofP (x : IKEv2TransformTypes.P) : IKEv2TransformTypes :=
  ⟨x.1, x.2.1, x.2.2.1, x.2.2.2.1, x.2.2.2.2.1, x.2.2.2.2.2.1⟩
/-- cyclonedx.go:537-544 -/
def J.ikev2TransformTypesFields : JFields IKEv2TransformTypes.P :=
  .field "encr" true (JCodec.pslice J.ikev2Enc) <|
  .field "prf" true (JCodec.pslice J.ikev2Prf) <|
  .field "integ" true (JCodec.pslice J.ikev2Integ) <|
  .field "ke" true (JCodec.pslice J.ikev2Ke) <|
  .field "esn" false JCodec.bool <|
  .field "auth" true (JCodec.pslice J.ikev2Auth) <|
  .nil

/-- cyclonedx.go:537-544 -/
def J.ikev2TransformTypes : JCodec IKEv2TransformTypes := JCodec.struct J.ikev2TransformTypesFields IKEv2TransformTypes.toP IKEv2TransformTypes.ofP

/-- The fields of `CryptoProtocolProperties` as a nested product. -/
abbrev CryptoProtocolProperties.P := CryptoProtocolType × String × (PSlice CipherSuite) × (Option IKEv2TransformTypes) × (PSlice BOMReference) × (PSlice RelatedCryptographicAsset) × Unit
omit [FloatIO] in
/-- Collects the fields of `CryptoProtocolProperties`. -/
def CryptoProtocolProperties.toP (x : CryptoProtocolProperties) : CryptoProtocolProperties.P :=
  (x.type, x.version, x.cipherSuites, x.ikev2TransformTypes, x.cryptoRefArray, x.relatedCryptographicAssets, ())
omit [FloatIO] in
/-- Puts the fields of `CryptoProtocolProperties` back. -/
def CryptoProtocolProperties.ofP (x : CryptoProtocolProperties.P) : CryptoProtocolProperties :=
  ⟨x.1, x.2.1, x.2.2.1, x.2.2.2.1, x.2.2.2.2.1, x.2.2.2.2.2.1⟩
/-- cyclonedx.go:509-516 -/
def J.cryptoProtocolPropertiesFields : JFields CryptoProtocolProperties.P :=
  .field "type" true JCodec.string <|
  .field "version" true JCodec.string <|
  .field "cipherSuites" true (JCodec.pslice J.cipherSuite) <|
  .field "ikev2TransformTypes" true (JCodec.option J.ikev2TransformTypes) <|
  .field "cryptoRefArray" true (JCodec.pslice J.bomReference) <|
  .field "relatedCryptographicAssets" true (JCodec.pslice J.relatedCryptographicAsset) <|
  .nil

/-- cyclonedx.go:509-516 -/
def J.cryptoProtocolProperties : JCodec CryptoProtocolProperties := JCodec.struct J.cryptoProtocolPropertiesFields CryptoProtocolProperties.toP CryptoProtocolProperties.ofP

/-- The fields of `SecuredBy` as a nested product. -/
abbrev SecuredBy.P := String × BOMReference × Unit
omit [FloatIO] in
/-- Collects the fields of `SecuredBy`. -/
def SecuredBy.toP (x : SecuredBy) : SecuredBy.P :=
  (x.mechanism, x.algorithmRef, ())
omit [FloatIO] in
/-- Puts the fields of `SecuredBy` back. -/
def SecuredBy.ofP (x : SecuredBy.P) : SecuredBy :=
  ⟨x.1, x.2.1⟩
/-- cyclonedx.go:546-549 -/
def J.securedByFields : JFields SecuredBy.P :=
  .field "mechanism" true JCodec.string <|
  .field "algorithmRef" true J.bomReference <|
  .nil

/-- cyclonedx.go:546-549 -/
def J.securedBy : JCodec SecuredBy := JCodec.struct J.securedByFields SecuredBy.toP SecuredBy.ofP

/-- The fields of `RelatedCryptoMaterialProperties` as a nested product. -/
abbrev RelatedCryptoMaterialProperties.P := RelatedCryptoMaterialType × String × CryptoKeyState × BOMReference × String × String × String × String × String × (Option Int) × String × (Option SecuredBy) × (Option Hash) × (PSlice RelatedCryptographicAsset) × Unit
omit [FloatIO] in
/-- Collects the fields of `RelatedCryptoMaterialProperties`. -/
def RelatedCryptoMaterialProperties.toP (x : RelatedCryptoMaterialProperties) : RelatedCryptoMaterialProperties.P :=
  (x.type, x.id, x.state, x.algorithmRef, x.creationDate, x.activationDate, x.updateDate, x.expirationDate, x.value, x.size, x.format, x.securedBy, x.fingerprint, x.relatedCryptographicAssets, ())
omit [FloatIO] in
/-- Puts the fields of `RelatedCryptoMaterialProperties` back. -/
def RelatedCryptoMaterialProperties.ofP (x : RelatedCryptoMaterialProperties.P) : RelatedCryptoMaterialProperties :=
  ⟨x.1, x.2.1, x.2.2.1, x.2.2.2.1, x.2.2.2.2.1, x.2.2.2.2.2.1, x.2.2.2.2.2.2.1, x.2.2.2.2.2.2.2.1, x.2.2.2.2.2.2.2.2.1, x.2.2.2.2.2.2.2.2.2.1, x.2.2.2.2.2.2.2.2.2.2.1, x.2.2.2.2.2.2.2.2.2.2.2.1, x.2.2.2.2.2.2.2.2.2.2.2.2.1, x.2.2.2.2.2.2.2.2.2.2.2.2.2.1⟩
/-- cyclonedx.go:1282-1297 -/
def J.relatedCryptoMaterialPropertiesFields : JFields RelatedCryptoMaterialProperties.P :=
  .field "type" true JCodec.string <|
  .field "id" true JCodec.string <|
  .field "state" true JCodec.string <|
  .field "algorithmRef" true J.bomReference <|
  .field "creationDate" true JCodec.string <|
  .field "activationDate" true JCodec.string <|
  .field "updateDate" true JCodec.string <|
  .field "expirationDate" true JCodec.string <|
  .field "value" true JCodec.string <|
  .field "size" true (JCodec.option JCodec.int) <|
  .field "format" true JCodec.string <|
  .field "securedBy" true (JCodec.option J.securedBy) <|
  .field "fingerprint" true (JCodec.option J.hash) <|
  .field "relatedCryptographicAssets" true (JCodec.pslice J.relatedCryptographicAsset) <|
  .nil

/-- cyclonedx.go:1282-1297 -/
def J.relatedCryptoMaterialProperties : JCodec RelatedCryptoMaterialProperties := JCodec.struct J.relatedCryptoMaterialPropertiesFields RelatedCryptoMaterialProperties.toP RelatedCryptoMaterialProperties.ofP

/-- The fields of `CryptoProperties` as a nested product. -/
abbrev CryptoProperties.P := CryptoAssetType × (Option CryptoAlgorithmProperties) × (Option CertificateProperties) × (Option RelatedCryptoMaterialProperties) × (Option CryptoProtocolProperties) × String × Unit
omit [FloatIO] in
/-- Collects the fields of `CryptoProperties`. -/
def CryptoProperties.toP (x : CryptoProperties) : CryptoProperties.P :=
  (x.assetType, x.algorithmProperties, x.certificateProperties, x.relatedCryptoMaterialProperties, x.protocolProperties, x.oid, ())
omit [FloatIO] in
/-- Puts the fields of `CryptoProperties` back. -/
def CryptoProperties.ofP (x : CryptoProperties.P) : CryptoProperties :=
  ⟨x.1, x.2.1, x.2.2.1, x.2.2.2.1, x.2.2.2.2.1, x.2.2.2.2.2.1⟩
/-- cyclonedx.go:500-507 -/
def J.cryptoPropertiesFields : JFields CryptoProperties.P :=
  .field "assetType" false JCodec.string <|
  .field "algorithmProperties" true (JCodec.option J.cryptoAlgorithmProperties) <|
  .field "certificateProperties" true (JCodec.option J.certificateProperties) <|
  .field "relatedCryptoMaterialProperties" true (JCodec.option J.relatedCryptoMaterialProperties) <|
  .field "protocolProperties" true (JCodec.option J.cryptoProtocolProperties) <|
  .field "oid" true JCodec.string <|
  .nil

/-- cyclonedx.go:500-507 -/
def J.cryptoProperties : JCodec CryptoProperties := JCodec.struct J.cryptoPropertiesFields CryptoProperties.toP CryptoProperties.ofP

/-- The fields of `CallstackFrame` as a nested product. -/
abbrev CallstackFrame.P := String × String × String × (PSlice String) × (Option Int) × (Option Int) × String × Unit
omit [FloatIO] in
/-- Collects the fields of `CallstackFrame`. -/
def CallstackFrame.toP (x : CallstackFrame) : CallstackFrame.P :=
  (x.package, x.module, x.function, x.parameters, x.line, x.column, x.fullFilename, ())
omit [FloatIO] in
/-- Puts the fields of `CallstackFrame` back. -/
def CallstackFrame.ofP (x : CallstackFrame.P) : CallstackFrame :=
  ⟨x.1, x.2.1, x.2.2.1, x.2.2.2.1, x.2.2.2.2.1, x.2.2.2.2.2.1, x.2.2.2.2.2.2.1⟩
/-- cyclonedx.go:161-169 -/
def J.callstackFrameFields : JFields CallstackFrame.P :=
  .field "package" true JCodec.string <|
  .field "module" true JCodec.string <|
  .field "function" true JCodec.string <|
  .field "parameters" true (JCodec.pslice JCodec.string) <|
  .field "line" true (JCodec.option JCodec.int) <|
  .field "column" true (JCodec.option JCodec.int) <|
  .field "fullFilename" true JCodec.string <|
  .nil

/-- cyclonedx.go:161-169 -/
def J.callstackFrame : JCodec CallstackFrame := JCodec.struct J.callstackFrameFields CallstackFrame.toP CallstackFrame.ofP

/-- The fields of `Callstack` as a nested product. -/
abbrev Callstack.P := (PSlice CallstackFrame) × Unit
omit [FloatIO] in
/-- Collects the fields of `Callstack`. -/
def Callstack.toP (x : Callstack) : Callstack.P :=
  (x.frames, ())
omit [FloatIO] in
/-- Puts the fields of `Callstack` back. -/
def Callstack.ofP (x : Callstack.P) : Callstack :=
  ⟨x.1⟩
/-- cyclonedx.go:157-159 -/
def J.callstackFields : JFields Callstack.P :=
  .field "frames" true (JCodec.pslice J.callstackFrame) <|
  .nil

/-- cyclonedx.go:157-159 -/
def J.callstack : JCodec Callstack := JCodec.struct J.callstackFields Callstack.toP Callstack.ofP

/-- The fields of `Copyright` as a nested product. -/
abbrev Copyright.P := String × Unit
omit [FloatIO] in
/-- Collects the fields of `Copyright`. -/
def Copyright.toP (x : Copyright) : Copyright.P :=
  (x.text, ())
omit [FloatIO] in
/-- Puts the fields of `Copyright` back. -/
def Copyright.ofP (x : Copyright.P) : Copyright :=
  ⟨x.1⟩
/-- cyclonedx.go:345-347 -/
def J.copyrightFields : JFields Copyright.P :=
  .field "text" false JCodec.string <|
  .nil

/-- cyclonedx.go:345-347 -/
def J.copyright : JCodec Copyright := JCodec.struct J.copyrightFields Copyright.toP Copyright.ofP

/-- The fields of `EvidenceIdentityMethod` as a nested product. -/
abbrev EvidenceIdentityMethod.P := EvidenceIdentityTechnique × (Option F32) × String × Unit
omit [FloatIO] in
/-- Collects the fields of `EvidenceIdentityMethod`. -/
def EvidenceIdentityMethod.toP (x : EvidenceIdentityMethod) : EvidenceIdentityMethod.P :=
  (x.technique, x.confidence, x.value, ())
omit [FloatIO] in
/-- Puts the fields of `EvidenceIdentityMethod` back. -/
def EvidenceIdentityMethod.ofP (x : EvidenceIdentityMethod.P) : EvidenceIdentityMethod :=
  ⟨x.1, x.2.1, x.2.2.1⟩
/-- cyclonedx.go:710-714 -/
def J.evidenceIdentityMethodFields : JFields EvidenceIdentityMethod.P :=
  .field "technique" true JCodec.string <|
  .field "confidence" true (JCodec.option JCodec.f32) <|
  .field "value" true JCodec.string <|
  .nil

/-- cyclonedx.go:710-714 -/
def J.evidenceIdentityMethod : JCodec EvidenceIdentityMethod := JCodec.struct J.evidenceIdentityMethodFields EvidenceIdentityMethod.toP EvidenceIdentityMethod.ofP

/-- The fields of `EvidenceIdentity` as a nested product. -/
abbrev EvidenceIdentity.P := EvidenceIdentityFieldType × (Option F32) × String × (PSlice EvidenceIdentityMethod) × (PSlice BOMReference) × Unit
omit [FloatIO] in
/-- Collects the fields of `EvidenceIdentity`. -/
def EvidenceIdentity.toP (x : EvidenceIdentity) : EvidenceIdentity.P :=
  (x.field, x.confidence, x.concludedValue, x.methods, x.tools, ())
omit [FloatIO] in
/-- Puts the fields of `EvidenceIdentity` back. -/
def EvidenceIdentity.ofP (x : EvidenceIdentity.P) : EvidenceIdentity :=
  ⟨x.1, x.2.1, x.2.2.1, x.2.2.2.1, x.2.2.2.2.1⟩
/-- cyclonedx.go:688-694 -/
def J.evidenceIdentityFields : JFields EvidenceIdentity.P :=
  .field "field" true JCodec.string <|
  .field "confidence" true (JCodec.option JCodec.f32) <|
  .field "concludedValue" true JCodec.string <|
  .field "methods" true (JCodec.pslice J.evidenceIdentityMethod) <|
  .field "tools" true (JCodec.pslice J.bomReference) <|
  .nil

/-- cyclonedx.go:688-694 -/
def J.evidenceIdentity : JCodec EvidenceIdentity := JCodec.struct J.evidenceIdentityFields EvidenceIdentity.toP EvidenceIdentity.ofP

/-- cyclonedx_json.go:192-220 -/
def J.evidenceIdentityChoice : JCodec EvidenceIdentityChoice where
  enc c :=
    match c.identity with
    | some i => if ¬ c.identities.isNil then none else J.evidenceIdentity.enc i
    | none =>
      if ¬ c.identities.isNil then (JCodec.pslice J.evidenceIdentity).enc c.identities else some .null
  dec j c := match j with
    | .arr js =>
      match (JCodec.pslice J.evidenceIdentity).dec (.arr js) .nil with
      | none => none
      | some ids => some { c with identities := ids }
    | j =>
      match J.evidenceIdentity.dec j {} with
      | none => none
      | some i => some { c with identity := some i }
  zero := {}
  empty _ := false
  nullish c := c.identity.isNone && (JCodec.pslice J.evidenceIdentity).nullish c.identities
  norm c :=
    match c.identity with
    | some i => { identity := some (J.evidenceIdentity.norm i) }
    | none =>
      match c.identities with
      | .list ids => { identities := .list (ids.map J.evidenceIdentity.norm) }
      | _ => { identity := some {} }
  good c := (∀ i ∈ c.identity, J.evidenceIdentity.good i) ∧
    (JCodec.pslice J.evidenceIdentity).good c.identities

/-- The fields of `EvidenceOccurrence` as a nested product. -/
abbrev EvidenceOccurrence.P := String × String × (Option Int) × (Option Int) × String × String × Unit
omit [FloatIO] in
/-- Collects the fields of `EvidenceOccurrence`. -/
def EvidenceOccurrence.toP (x : EvidenceOccurrence) : EvidenceOccurrence.P :=
  (x.bomRef, x.location, x.line, x.offset, x.symbol, x.additionalContext, ())
omit [FloatIO] in
/-- Puts the fields of `EvidenceOccurrence` back. -/
def EvidenceOccurrence.ofP (x : EvidenceOccurrence.P) : EvidenceOccurrence :=
  ⟨x.1, x.2.1, x.2.2.1, x.2.2.2.1, x.2.2.2.2.1, x.2.2.2.2.2.1⟩
/-- cyclonedx.go:731-738 -/
def J.evidenceOccurrenceFields : JFields EvidenceOccurrence.P :=
  .field "bom-ref" true JCodec.string <|
  .field "location" true JCodec.string <|
  .field "line" true (JCodec.option JCodec.int) <|
  .field "offset" true (JCodec.option JCodec.int) <|
  .field "symbol" true JCodec.string <|
  .field "additionalContext" true JCodec.string <|
  .nil

/-- cyclonedx.go:731-738 -/
def J.evidenceOccurrence : JCodec EvidenceOccurrence := JCodec.struct J.evidenceOccurrenceFields EvidenceOccurrence.toP EvidenceOccurrence.ofP

/-- The fields of `OrganizationalEntityOrContact` as a nested product. -/
abbrev OrganizationalEntityOrContact.P := (Option OrganizationalEntity) × (Option OrganizationalContact) × Unit
omit [FloatIO] in
/-- Collects the fields of `OrganizationalEntityOrContact`. -/
def OrganizationalEntityOrContact.toP (x : OrganizationalEntityOrContact) : OrganizationalEntityOrContact.P :=
  (x.organization, x.individual, ())
omit [FloatIO] in
/-- Puts the fields of `OrganizationalEntityOrContact` back. -/
def OrganizationalEntityOrContact.ofP (x : OrganizationalEntityOrContact.P) : OrganizationalEntityOrContact :=
  ⟨x.1, x.2.1⟩
/-- cyclonedx.go:1226-1229 -/
def J.organizationalEntityOrContactFields : JFields OrganizationalEntityOrContact.P :=
  .field "organization" true (JCodec.option J.organizationalEntity) <|
  .field "individual" true (JCodec.option J.organizationalContact) <|
  .nil

/-- cyclonedx.go:1226-1229 -/
def J.organizationalEntityOrContact : JCodec OrganizationalEntityOrContact := JCodec.struct J.organizationalEntityOrContactFields OrganizationalEntityOrContact.toP OrganizationalEntityOrContact.ofP

/-- The fields of `Licensing` as a nested product. -/
abbrev Licensing.P := (PSlice String) × (Option OrganizationalEntityOrContact) × (Option OrganizationalEntityOrContact) × (Option OrganizationalEntityOrContact) × String × (PSlice LicenseType) × String × String × Unit
omit [FloatIO] in
/-- Collects the fields of `Licensing`. -/
def Licensing.toP (x : Licensing) : Licensing.P :=
  (x.altIDs, x.licensor, x.licensee, x.purchaser, x.purchaseOrder, x.licenseTypes, x.lastRenewal, x.expiration, ())
omit [FloatIO] in
/-- Puts the fields of `Licensing` back. -/
def Licensing.ofP (x : Licensing.P) : Licensing :=
  ⟨x.1, x.2.1, x.2.2.1, x.2.2.2.1, x.2.2.2.2.1, x.2.2.2.2.2.1, x.2.2.2.2.2.2.1, x.2.2.2.2.2.2.2.1⟩
/-- cyclonedx.go:995-1004 -/
def J.licensingFields : JFields Licensing.P :=
  .field "altIds" true (JCodec.pslice JCodec.string) <|
  .field "licensor" true (JCodec.option J.organizationalEntityOrContact) <|
  .field "licensee" true (JCodec.option J.organizationalEntityOrContact) <|
  .field "purchaser" true (JCodec.option J.organizationalEntityOrContact) <|
  .field "purchaseOrder" true JCodec.string <|
  .field "licenseTypes" true (JCodec.pslice JCodec.string) <|
  .field "lastRenewal" true JCodec.string <|
  .field "expiration" true JCodec.string <|
  .nil

/-- cyclonedx.go:995-1004 -/
def J.licensing : JCodec Licensing := JCodec.struct J.licensingFields Licensing.toP Licensing.ofP

/-- The fields of `License` as a nested product. -/
abbrev License.P := String × String × String × LicenseAcknowledgement × (Option AttachedText) × String × (Option Licensing) × (PSlice Property) × Unit
omit [FloatIO] in
/-- Collects the fields of `License`. -/
def License.toP (x : License) : License.P :=
  (x.bomRef, x.id, x.name, x.acknowledgement, x.text, x.url, x.licensing, x.properties, ())
omit [FloatIO] in
/-- Puts the fields of `License` back. -/
def License.ofP (x : License.P) : License :=
  ⟨x.1, x.2.1, x.2.2.1, x.2.2.2.1, x.2.2.2.2.1, x.2.2.2.2.2.1, x.2.2.2.2.2.2.1, x.2.2.2.2.2.2.2.1⟩
/-- cyclonedx.go:936-945 -/
def J.licenseFields : JFields License.P :=
  .field "bom-ref" true JCodec.string <|
  .field "id" true JCodec.string <|
  .field "name" true JCodec.string <|
  .field "acknowledgement" true JCodec.string <|
  .field "text" true (JCodec.option J.attachedText) <|
  .field "url" true JCodec.string <|
  .field "licensing" true (JCodec.option J.licensing) <|
  .field "properties" true (JCodec.pslice J.property) <|
  .nil

/-- cyclonedx.go:936-945 without the `MarshalJSON` method (the local type `Alias`). -/
def J.licenseAlias : JCodec License := JCodec.struct J.licenseFields License.toP License.ofP

/-- cyclonedx_json.go:222-231: a license needs exactly one of id and name to be written; reading does not
check that. -/
def J.license : JCodec License :=
  { J.licenseAlias with
    enc := fun l =>
      if l.id ≠ "" ∧ l.name ≠ "" then none
      else if l.id = "" ∧ l.name = "" then none
      else J.licenseAlias.enc l }

/-- The fields of `LicenseExpressionDetail` as a nested product. -/
abbrev LicenseExpressionDetail.P := String × String × (Option AttachedText) × String × Unit
omit [FloatIO] in
/-- Collects the fields of `LicenseExpressionDetail`. -/
def LicenseExpressionDetail.toP (x : LicenseExpressionDetail) : LicenseExpressionDetail.P :=
  (x.licenseIdentifier, x.bomRef, x.text, x.url, ())
omit [FloatIO] in
/-- Puts the fields of `LicenseExpressionDetail` back. -/
def LicenseExpressionDetail.ofP (x : LicenseExpressionDetail.P) : LicenseExpressionDetail :=
  ⟨x.1, x.2.1, x.2.2.1, x.2.2.2.1⟩
/-- cyclonedx.go:967-972 -/
def J.licenseExpressionDetailFields : JFields LicenseExpressionDetail.P :=
  .field "licenseIdentifier" false JCodec.string <|
  .field "bom-ref" true JCodec.string <|
  .field "text" true (JCodec.option J.attachedText) <|
  .field "url" true JCodec.string <|
  .nil

/-- cyclonedx.go:967-972 -/
def J.licenseExpressionDetail : JCodec LicenseExpressionDetail := JCodec.struct J.licenseExpressionDetailFields LicenseExpressionDetail.toP LicenseExpressionDetail.ofP

/-- The fields of `LicenseChoice` as a nested product. -/
abbrev LicenseChoice.P := (Option License) × String × (PSlice LicenseExpressionDetail) × (Option LicenseAcknowledgement) × String × (Option Licensing) × (PSlice Property) × Unit
omit [FloatIO] in
/-- Collects the fields of `LicenseChoice`. -/
def LicenseChoice.toP (x : LicenseChoice) : LicenseChoice.P :=
  (x.license, x.expression, x.expressionDetails, x.acknowledgement, x.bomRef, x.licensing, x.properties, ())
omit [FloatIO] in
/-- Puts the fields of `LicenseChoice` back. -/
def LicenseChoice.ofP (x : LicenseChoice.P) : LicenseChoice :=
  ⟨x.1, x.2.1, x.2.2.1, x.2.2.2.1, x.2.2.2.2.1, x.2.2.2.2.2.1, x.2.2.2.2.2.2.1⟩
/-- cyclonedx.go:956-964 -/
def J.licenseChoiceFields : JFields LicenseChoice.P :=
  .field "license" true (JCodec.option J.license) <|
  .field "expression" true JCodec.string <|
  .field "expressionDetails" true (JCodec.pslice J.licenseExpressionDetail) <|
  .field "acknowledgement" true (JCodec.option JCodec.string) <|
  .field "bom-ref" true JCodec.string <|
  .field "licensing" true (JCodec.option J.licensing) <|
  .field "properties" true (JCodec.pslice J.property) <|
  .nil

/-- cyclonedx.go:956-964 -/
def J.licenseChoice : JCodec LicenseChoice := JCodec.struct J.licenseChoiceFields LicenseChoice.toP LicenseChoice.ofP

/-- The fields of `Evidence` as a nested product. -/
abbrev Evidence.P := (Option EvidenceIdentityChoice) × (PSlice EvidenceOccurrence) × (Option Callstack) × (PSlice LicenseChoice) × (PSlice Copyright) × Unit
omit [FloatIO] in
/-- Collects the fields of `Evidence`. -/
def Evidence.toP (x : Evidence) : Evidence.P :=
  (x.identity, x.occurrences, x.callstack, x.licenses, x.copyright, ())
omit [FloatIO] in
/-- Puts the fields of `Evidence` back. -/
def Evidence.ofP (x : Evidence.P) : Evidence :=
  ⟨x.1, x.2.1, x.2.2.1, x.2.2.2.1, x.2.2.2.2.1⟩
/-- cyclonedx.go:672-678 -/
def J.evidenceFields : JFields Evidence.P :=
  .field "identity" true (JCodec.option J.evidenceIdentityChoice) <|
  .field "occurrences" true (JCodec.pslice J.evidenceOccurrence) <|
  .field "callstack" true (JCodec.option J.callstack) <|
  .field "licenses" true (JCodec.pslice J.licenseChoice) <|
  .field "copyright" true (JCodec.pslice J.copyright) <|
  .nil

/-- cyclonedx.go:672-678 -/
def J.evidence : JCodec Evidence := JCodec.struct J.evidenceFields Evidence.toP Evidence.ofP

/-- The fields of `ExternalReference` as a nested product. -/
abbrev ExternalReference.P := String × String × (PSlice Hash) × ExternalReferenceType × (PSlice Property) × Unit
omit [FloatIO] in
/-- Collects the fields of `ExternalReference`. -/
def ExternalReference.toP (x : ExternalReference) : ExternalReference.P :=
  (x.url, x.comment, x.hashes, x.type, x.properties, ())
omit [FloatIO] in
/-- Puts the fields of `ExternalReference` back. -/
def ExternalReference.ofP (x : ExternalReference.P) : ExternalReference :=
  ⟨x.1, x.2.1, x.2.2.1, x.2.2.2.1, x.2.2.2.2.1⟩
/-- cyclonedx.go:740-746 -/
def J.externalReferenceFields : JFields ExternalReference.P :=
  .field "url" false JCodec.string <|
  .field "comment" true JCodec.string <|
  .field "hashes" true (JCodec.pslice J.hash) <|
  .field "type" false JCodec.string <|
  .field "properties" true (JCodec.pslice J.property) <|
  .nil

/-- cyclonedx.go:740-746 -/
def J.externalReference : JCodec ExternalReference := JCodec.struct J.externalReferenceFields ExternalReference.toP ExternalReference.ofP

/-- The fields of `JSFPublicKey` as a nested product. -/
abbrev JSFPublicKey.P := String × String × String × String × String × String × Unit
omit [FloatIO] in
/-- Collects the fields of `JSFPublicKey`. -/
def JSFPublicKey.toP (x : JSFPublicKey) : JSFPublicKey.P :=
  (x.kty, x.crv, x.x, x.y, x.n, x.e, ())
omit [FloatIO] in
/-- Puts the fields of `JSFPublicKey` back. -/
def JSFPublicKey.ofP (x : JSFPublicKey.P) : JSFPublicKey :=
  ⟨x.1, x.2.1, x.2.2.1, x.2.2.2.1, x.2.2.2.2.1, x.2.2.2.2.2.1⟩
/-- cyclonedx.go:925-934 -/
def J.jsfPublicKeyFields : JFields JSFPublicKey.P :=
  .field "kty" true JCodec.string <|
  .field "crv" true JCodec.string <|
  .field "x" true JCodec.string <|
  .field "y" true JCodec.string <|
  .field "n" true JCodec.string <|
  .field "e" true JCodec.string <|
  .nil

/-- cyclonedx.go:925-934 -/
def J.jsfPublicKey : JCodec JSFPublicKey := JCodec.struct J.jsfPublicKeyFields JSFPublicKey.toP JSFPublicKey.ofP

/-- The fields of `JSFSigner` as a nested product. -/
abbrev JSFSigner.P := String × String × JSFPublicKey × (PSlice String) × (PSlice String) × String × Unit
omit [FloatIO] in
/-- Collects the fields of `JSFSigner`. -/
def JSFSigner.toP (x : JSFSigner) : JSFSigner.P :=
  (x.algorithm, x.keyID, x.publicKey, x.certificatePath, x.excludes, x.value, ())
omit [FloatIO] in
/-- Puts the fields of `JSFSigner` back. -/
def JSFSigner.ofP (x : JSFSigner.P) : JSFSigner :=
  ⟨x.1, x.2.1, x.2.2.1, x.2.2.2.1, x.2.2.2.2.1, x.2.2.2.2.2.1⟩
/-- cyclonedx.go:916-923 -/
def J.jsfSignerFields : JFields JSFSigner.P :=
  .field "algorithm" false JCodec.string <|
  .field "keyId" true JCodec.string <|
  .field "publicKey" true J.jsfPublicKey <|
  .field "certificatePath" true (JCodec.pslice JCodec.string) <|
  .field "excludes" true (JCodec.pslice JCodec.string) <|
  .field "value" false JCodec.string <|
  .nil

/-- cyclonedx.go:916-923 -/
def J.jsfSigner : JCodec JSFSigner := JCodec.struct J.jsfSignerFields JSFSigner.toP JSFSigner.ofP

/-- The fields of `JSFSignature` as a nested product. -/
abbrev JSFSignature.P := (Option JSFSigner) × (PSlice JSFSigner) × (PSlice JSFSigner) × Unit
omit [FloatIO] in
/-- Collects the fields of `JSFSignature`. -/
def JSFSignature.toP (x : JSFSignature) : JSFSignature.P :=
  (x.jsfSigner, x.signers, x.chain, ())
omit [FloatIO] in
/-- Puts the fields of `JSFSignature` back. -/
def JSFSignature.ofP (x : JSFSignature.P) : JSFSignature :=
  ⟨x.1, x.2.1, x.2.2.1⟩
/-- cyclonedx.go:909-914 -/
def J.jsfSignatureFields : JFields JSFSignature.P :=
  .skip none <|
  .field "signers" true (JCodec.pslice J.jsfSigner) <|
  .field "chain" true (JCodec.pslice J.jsfSigner) <|
  .nil

/-- cyclonedx.go:909-914 -/
def J.jsfSignature : JCodec JSFSignature := JCodec.struct J.jsfSignatureFields JSFSignature.toP JSFSignature.ofP

/-- The fields of `MLModelCO2Measure` as a nested product. -/
abbrev MLModelCO2Measure.P := F32 × MLModelCO2Unit × Unit
omit [FloatIO] in
/-- Collects the fields of `MLModelCO2Measure`. -/
def MLModelCO2Measure.toP (x : MLModelCO2Measure) : MLModelCO2Measure.P :=
  (x.value, x.unit, ())
omit [FloatIO] in
/-- Puts the fields of `MLModelCO2Measure` back. -/
def MLModelCO2Measure.ofP (x : MLModelCO2Measure.P) : MLModelCO2Measure :=
  ⟨x.1, x.2.1⟩
/-- cyclonedx.go:1099-1102 -/
def J.mlModelCO2MeasureFields : JFields MLModelCO2Measure.P :=
  .field "value" false JCodec.f32 <|
  .field "unit" false JCodec.string <|
  .nil

/-- cyclonedx.go:1099-1102 -/
def J.mlModelCO2Measure : JCodec MLModelCO2Measure := JCodec.struct J.mlModelCO2MeasureFields MLModelCO2Measure.toP MLModelCO2Measure.ofP

/-- The fields of `MLModelEnergyMeasure` as a nested product. -/
abbrev MLModelEnergyMeasure.P := F32 × MLModelEnergyUnit × Unit
omit [FloatIO] in
/-- Collects the fields of `MLModelEnergyMeasure`. -/
def MLModelEnergyMeasure.toP (x : MLModelEnergyMeasure) : MLModelEnergyMeasure.P :=
  (x.value, x.unit, ())
omit [FloatIO] in
/-- Puts the fields of `MLModelEnergyMeasure` back. -/
def MLModelEnergyMeasure.ofP (x : MLModelEnergyMeasure.P) : MLModelEnergyMeasure :=
  ⟨x.1, x.2.1⟩
/-- cyclonedx.go:1131-1134 -/
def J.mlModelEnergyMeasureFields : JFields MLModelEnergyMeasure.P :=
  .field "value" false JCodec.f32 <|
  .field "unit" false JCodec.string <|
  .nil

/-- cyclonedx.go:1131-1134 -/
def J.mlModelEnergyMeasure : JCodec MLModelEnergyMeasure := JCodec.struct J.mlModelEnergyMeasureFields MLModelEnergyMeasure.toP MLModelEnergyMeasure.ofP

/-- The fields of `MLModelEnergyProvider` as a nested product. -/
abbrev MLModelEnergyProvider.P := String × String × (Option OrganizationalEntity) × MLModelEnergySource × (Option MLModelEnergyMeasure) × (PSlice ExternalReference) × Unit
omit [FloatIO] in
/-- Collects the fields of `MLModelEnergyProvider`. -/
def MLModelEnergyProvider.toP (x : MLModelEnergyProvider) : MLModelEnergyProvider.P :=
  (x.bomRef, x.description, x.organization, x.energySource, x.energyProvided, x.externalReferences, ())
omit [FloatIO] in
/-- Puts the fields of `MLModelEnergyProvider` back. -/
def MLModelEnergyProvider.ofP (x : MLModelEnergyProvider.P) : MLModelEnergyProvider :=
  ⟨x.1, x.2.1, x.2.2.1, x.2.2.2.1, x.2.2.2.2.1, x.2.2.2.2.2.1⟩
/-- cyclonedx.go:1136-1143 -/
def J.mlModelEnergyProviderFields : JFields MLModelEnergyProvider.P :=
  .field "bom-ref" true JCodec.string <|
  .field "description" true JCodec.string <|
  .field "organization" false (JCodec.option J.organizationalEntity) <|
  .field "energySource" false JCodec.string <|
  .field "energyProvided" false (JCodec.option J.mlModelEnergyMeasure) <|
  .field "externalReferences" true (JCodec.pslice J.externalReference) <|
  .nil

/-- cyclonedx.go:1136-1143 -/
def J.mlModelEnergyProvider : JCodec MLModelEnergyProvider := JCodec.struct J.mlModelEnergyProviderFields MLModelEnergyProvider.toP MLModelEnergyProvider.ofP

/-- The fields of `MLModelEnergyConsumption` as a nested product. -/
abbrev MLModelEnergyConsumption.P := MLModelEnergyConsumptionActivity × (PSlice MLModelEnergyProvider) × MLModelEnergyMeasure × (Option MLModelCO2Measure) × (Option MLModelCO2Measure) × (PSlice Property) × Unit
omit [FloatIO] in
/-- Collects the fields of `MLModelEnergyConsumption`. -/
def MLModelEnergyConsumption.toP (x : MLModelEnergyConsumption) : MLModelEnergyConsumption.P :=
  (x.activity, x.energyProviders, x.activityEnergyCost, x.co2CostEquivalent, x.co2CostOffset, x.properties, ())
omit [FloatIO] in
/-- Puts the fields of `MLModelEnergyConsumption` back. -/
def MLModelEnergyConsumption.ofP (x : MLModelEnergyConsumption.P) : MLModelEnergyConsumption :=
  ⟨x.1, x.2.1, x.2.2.1, x.2.2.2.1, x.2.2.2.2.1, x.2.2.2.2.2.1⟩
/-- cyclonedx.go:1108-1115 -/
def J.mlModelEnergyConsumptionFields : JFields MLModelEnergyConsumption.P :=
  .field "activity" false JCodec.string <|
  .field "energyProviders" false (JCodec.pslice J.mlModelEnergyProvider) <|
  .field "activityEnergyCost" false J.mlModelEnergyMeasure <|
  .field "co2CostEquivalent" true (JCodec.option J.mlModelCO2Measure) <|
  .field "co2CostOffset" true (JCodec.option J.mlModelCO2Measure) <|
  .field "properties" true (JCodec.pslice J.property) <|
  .nil

/-- cyclonedx.go:1108-1115 -/
def J.mlModelEnergyConsumption : JCodec MLModelEnergyConsumption := JCodec.struct J.mlModelEnergyConsumptionFields MLModelEnergyConsumption.toP MLModelEnergyConsumption.ofP

/-- The fields of `MLModelCardEnvironmentalConsiderations` as a nested product. -/
abbrev MLModelCardEnvironmentalConsiderations.P := (PSlice MLModelEnergyConsumption) × (PSlice Property) × Unit
omit [FloatIO] in
/-- Collects the fields of `MLModelCardEnvironmentalConsiderations`. -/
def MLModelCardEnvironmentalConsiderations.toP (x : MLModelCardEnvironmentalConsiderations) : MLModelCardEnvironmentalConsiderations.P :=
  (x.energyConsumptions, x.properties, ())
omit [FloatIO] in
/-- Puts the fields of `MLModelCardEnvironmentalConsiderations` back. -/
def MLModelCardEnvironmentalConsiderations.ofP (x : MLModelCardEnvironmentalConsiderations.P) : MLModelCardEnvironmentalConsiderations :=
  ⟨x.1, x.2.1⟩
/-- cyclonedx.go:1082-1085 -/
def J.mlModelCardEnvironmentalConsiderationsFields : JFields MLModelCardEnvironmentalConsiderations.P :=
  .field "energyConsumptions" true (JCodec.pslice J.mlModelEnergyConsumption) <|
  .field "properties" true (JCodec.pslice J.property) <|
  .nil

/-- cyclonedx.go:1082-1085 -/
def J.mlModelCardEnvironmentalConsiderations : JCodec MLModelCardEnvironmentalConsiderations := JCodec.struct J.mlModelCardEnvironmentalConsiderationsFields MLModelCardEnvironmentalConsiderations.toP MLModelCardEnvironmentalConsiderations.ofP

/-- The fields of `MLModelCardEthicalConsideration` as a nested product. -/
abbrev MLModelCardEthicalConsideration.P := String × String × Unit
omit [FloatIO] in
/-- Collects the fields of `MLModelCardEthicalConsideration`. -/
def MLModelCardEthicalConsideration.toP (x : MLModelCardEthicalConsideration) : MLModelCardEthicalConsideration.P :=
  (x.name, x.mitigationStrategy, ())
omit [FloatIO] in
/-- Puts the fields of `MLModelCardEthicalConsideration` back. -/
def MLModelCardEthicalConsideration.ofP (x : MLModelCardEthicalConsideration.P) : MLModelCardEthicalConsideration :=
  ⟨x.1, x.2.1⟩
/-- cyclonedx.go:1087-1090 -/
def J.mlModelCardEthicalConsiderationFields : JFields MLModelCardEthicalConsideration.P :=
  .field "name" true JCodec.string <|
  .field "mitigationStrategy" true JCodec.string <|
  .nil

/-- cyclonedx.go:1087-1090 -/
def J.mlModelCardEthicalConsideration : JCodec MLModelCardEthicalConsideration := JCodec.struct J.mlModelCardEthicalConsiderationFields MLModelCardEthicalConsideration.toP MLModelCardEthicalConsideration.ofP

/-- The fields of `MLModelCardFairnessAssessment` as a nested product. -/
abbrev MLModelCardFairnessAssessment.P := String × String × String × String × Unit
omit [FloatIO] in
/-- Collects the fields of `MLModelCardFairnessAssessment`. -/
def MLModelCardFairnessAssessment.toP (x : MLModelCardFairnessAssessment) : MLModelCardFairnessAssessment.P :=
  (x.groupAtRisk, x.benefits, x.harms, x.mitigationStrategy, ())
omit [FloatIO] in
/-- Puts the fields of `MLModelCardFairnessAssessment` back. -/
def MLModelCardFairnessAssessment.ofP (x : MLModelCardFairnessAssessment.P) : MLModelCardFairnessAssessment :=
  ⟨x.1, x.2.1, x.2.2.1, x.2.2.2.1⟩
/-- cyclonedx.go:1092-1097 -/
def J.mlModelCardFairnessAssessmentFields : JFields MLModelCardFairnessAssessment.P :=
  .field "groupAtRisk" true JCodec.string <|
  .field "benefits" true JCodec.string <|
  .field "harms" true JCodec.string <|
  .field "mitigationStrategy" true JCodec.string <|
  .nil

/-- cyclonedx.go:1092-1097 -/
def J.mlModelCardFairnessAssessment : JCodec MLModelCardFairnessAssessment := JCodec.struct J.mlModelCardFairnessAssessmentFields MLModelCardFairnessAssessment.toP MLModelCardFairnessAssessment.ofP

/-- The fields of `MLModelCardConsiderations` as a nested product. -/
abbrev MLModelCardConsiderations.P := (PSlice String) × (PSlice String) × (PSlice String) × (PSlice String) × (PSlice MLModelCardEthicalConsideration) × (Option MLModelCardEnvironmentalConsiderations) × (PSlice MLModelCardFairnessAssessment) × Unit
omit [FloatIO] in
/-- Collects the fields of `MLModelCardConsiderations`. -/
def MLModelCardConsiderations.toP (x : MLModelCardConsiderations) : MLModelCardConsiderations.P :=
  (x.users, x.useCases, x.technicalLimitations, x.performanceTradeoffs, x.ethicalConsiderations, x.environmentalConsiderations, x.fairnessAssessments, ())
omit [FloatIO] in
/-- Puts the fields of `MLModelCardConsiderations` back. -/
def MLModelCardConsiderations.ofP (x : MLModelCardConsiderations.P) : MLModelCardConsiderations :=
  ⟨x.1, x.2.1, x.2.2.1, x.2.2.2.1, x.2.2.2.2.1, x.2.2.2.2.2.1, x.2.2.2.2.2.2.1⟩
/-- cyclonedx.go:1072-1080 -/
def J.mlModelCardConsiderationsFields : JFields MLModelCardConsiderations.P :=
  .field "users" true (JCodec.pslice JCodec.string) <|
  .field "useCases" true (JCodec.pslice JCodec.string) <|
  .field "technicalLimitations" true (JCodec.pslice JCodec.string) <|
  .field "performanceTradeoffs" true (JCodec.pslice JCodec.string) <|
  .field "ethicalConsiderations" true (JCodec.pslice J.mlModelCardEthicalConsideration) <|
  .field "environmentalConsiderations" true (JCodec.option J.mlModelCardEnvironmentalConsiderations) <|
  .field "fairnessAssessments" true (JCodec.pslice J.mlModelCardFairnessAssessment) <|
  .nil

/-- cyclonedx.go:1072-1080 -/
def J.mlModelCardConsiderations : JCodec MLModelCardConsiderations := JCodec.struct J.mlModelCardConsiderationsFields MLModelCardConsiderations.toP MLModelCardConsiderations.ofP

/-- cyclonedx_json.go:68-101 -/
def J.mlDatasetChoice : JCodec MLDatasetChoice where
  enc dc :=
    if dc.ref ≠ "" then some (.obj [("ref", .str dc.ref)])
    else match dc.componentData with
      | some d => J.componentData.enc d
      | none => some (.obj [])
  dec j dc :=
    match (J.peek "ref").dec j "" with
    | none => none
    | some r =>
      if r ≠ "" then some { dc with ref := r }
      else match J.componentData.dec j {} with
        | none => none
        | some d => if ¬ d.isZero then some { dc with componentData := some d } else some dc
  zero := {}
  empty _ := false
  norm dc :=
    if dc.ref ≠ "" then { ref := dc.ref }
    else match dc.componentData with
      | some d => if ¬ (J.componentData.norm d).isZero then { componentData := some (J.componentData.norm d) } else {}
      | none => {}
  good dc := dc.ref = "" → ∀ d ∈ dc.componentData, J.componentData.good d

/-- The fields of `MLInputOutputParameters` as a nested product. -/
abbrev MLInputOutputParameters.P := String × Unit
omit [FloatIO] in
/-- Collects the fields of `MLInputOutputParameters`. -/
def MLInputOutputParameters.toP (x : MLInputOutputParameters) : MLInputOutputParameters.P :=
  (x.format, ())
omit [FloatIO] in
/-- Puts the fields of `MLInputOutputParameters` back. -/
def MLInputOutputParameters.ofP (x : MLInputOutputParameters.P) : MLInputOutputParameters :=
  ⟨x.1⟩
/-- cyclonedx.go:1061-1063 -/
def J.mlInputOutputParametersFields : JFields MLInputOutputParameters.P :=
  .field "format" true JCodec.string <|
  .nil

/-- cyclonedx.go:1061-1063 -/
def J.mlInputOutputParameters : JCodec MLInputOutputParameters := JCodec.struct J.mlInputOutputParametersFields MLInputOutputParameters.toP MLInputOutputParameters.ofP

/-- The fields of `MLModelParametersApproach` as a nested product. -/
abbrev MLModelParametersApproach.P := MLModelParametersApproachType × Unit
omit [FloatIO] in
/-- Collects the fields of `MLModelParametersApproach`. -/
def MLModelParametersApproach.toP (x : MLModelParametersApproach) : MLModelParametersApproach.P :=
  (x.type, ())
omit [FloatIO] in
/-- Puts the fields of `MLModelParametersApproach` back. -/
def MLModelParametersApproach.ofP (x : MLModelParametersApproach.P) : MLModelParametersApproach :=
  ⟨x.1⟩
/-- cyclonedx.go:1175-1177 -/
def J.mlModelParametersApproachFields : JFields MLModelParametersApproach.P :=
  .field "type" true JCodec.string <|
  .nil

/-- cyclonedx.go:1175-1177 -/
def J.mlModelParametersApproach : JCodec MLModelParametersApproach := JCodec.struct J.mlModelParametersApproachFields MLModelParametersApproach.toP MLModelParametersApproach.ofP

/-- The fields of `MLModelParameters` as a nested product. -/
abbrev MLModelParameters.P := (Option MLModelParametersApproach) × String × String × String × (PSlice MLDatasetChoice) × (PSlice MLInputOutputParameters) × (PSlice MLInputOutputParameters) × Unit
omit [FloatIO] in
/-- Collects the fields of `MLModelParameters`. -/
def MLModelParameters.toP (x : MLModelParameters) : MLModelParameters.P :=
  (x.approach, x.task, x.architectureFamily, x.modelArchitecture, x.datasets, x.inputs, x.outputs, ())
omit [FloatIO] in
/-- Puts the fields of `MLModelParameters` back. -/
def MLModelParameters.ofP (x : MLModelParameters.P) : MLModelParameters :=
  ⟨x.1, x.2.1, x.2.2.1, x.2.2.2.1, x.2.2.2.2.1, x.2.2.2.2.2.1, x.2.2.2.2.2.2.1⟩
/-- cyclonedx.go:1165-1173 -/
def J.mlModelParametersFields : JFields MLModelParameters.P :=
  .field "approach" true (JCodec.option J.mlModelParametersApproach) <|
  .field "task" true JCodec.string <|
  .field "architectureFamily" true JCodec.string <|
  .field "modelArchitecture" true JCodec.string <|
  .field "datasets" true (JCodec.pslice J.mlDatasetChoice) <|
  .field "inputs" true (JCodec.pslice J.mlInputOutputParameters) <|
  .field "outputs" true (JCodec.pslice J.mlInputOutputParameters) <|
  .nil

/-- cyclonedx.go:1165-1173 -/
def J.mlModelParameters : JCodec MLModelParameters := JCodec.struct J.mlModelParametersFields MLModelParameters.toP MLModelParameters.ofP

/-- The fields of `MLPerformanceMetricConfidenceInterval` as a nested product. -/
abbrev MLPerformanceMetricConfidenceInterval.P := String × String × Unit
omit [FloatIO] in
/-- Collects the fields of `MLPerformanceMetricConfidenceInterval`. -/
def MLPerformanceMetricConfidenceInterval.toP (x : MLPerformanceMetricConfidenceInterval) : MLPerformanceMetricConfidenceInterval.P :=
  (x.lowerBound, x.upperBound, ())
omit [FloatIO] in
/-- Puts the fields of `MLPerformanceMetricConfidenceInterval` back. -/
def MLPerformanceMetricConfidenceInterval.ofP (x : MLPerformanceMetricConfidenceInterval.P) : MLPerformanceMetricConfidenceInterval :=
  ⟨x.1, x.2.1⟩
/-- cyclonedx.go:1201-1204 -/
def J.mlPerformanceMetricConfidenceIntervalFields : JFields MLPerformanceMetricConfidenceInterval.P :=
  .field "lowerBound" true JCodec.string <|
  .field "upperBound" true JCodec.string <|
  .nil

/-- cyclonedx.go:1201-1204 -/
def J.mlPerformanceMetricConfidenceInterval : JCodec MLPerformanceMetricConfidenceInterval := JCodec.struct J.mlPerformanceMetricConfidenceIntervalFields MLPerformanceMetricConfidenceInterval.toP MLPerformanceMetricConfidenceInterval.ofP

/-- The fields of `MLPerformanceMetric` as a nested product. -/
abbrev MLPerformanceMetric.P := String × String × String × (Option MLPerformanceMetricConfidenceInterval) × Unit
omit [FloatIO] in
/-- Collects the fields of `MLPerformanceMetric`. -/
def MLPerformanceMetric.toP (x : MLPerformanceMetric) : MLPerformanceMetric.P :=
  (x.type, x.value, x.slice, x.confidenceInterval, ())
omit [FloatIO] in
/-- Puts the fields of `MLPerformanceMetric` back. -/
def MLPerformanceMetric.ofP (x : MLPerformanceMetric.P) : MLPerformanceMetric :=
  ⟨x.1, x.2.1, x.2.2.1, x.2.2.2.1⟩
/-- cyclonedx.go:1194-1199 -/
def J.mlPerformanceMetricFields : JFields MLPerformanceMetric.P :=
  .field "type" true JCodec.string <|
  .field "value" true JCodec.string <|
  .field "slice" true JCodec.string <|
  .field "confidenceInterval" true (JCodec.option J.mlPerformanceMetricConfidenceInterval) <|
  .nil

/-- cyclonedx.go:1194-1199 -/
def J.mlPerformanceMetric : JCodec MLPerformanceMetric := JCodec.struct J.mlPerformanceMetricFields MLPerformanceMetric.toP MLPerformanceMetric.ofP

/-- The fields of `MLQuantitativeAnalysis` as a nested product. -/
abbrev MLQuantitativeAnalysis.P := (PSlice MLPerformanceMetric) × (Option ComponentDataGraphics) × Unit
omit [FloatIO] in
/-- Collects the fields of `MLQuantitativeAnalysis`. -/
def MLQuantitativeAnalysis.toP (x : MLQuantitativeAnalysis) : MLQuantitativeAnalysis.P :=
  (x.performanceMetrics, x.graphics, ())
omit [FloatIO] in
/-- Puts the fields of `MLQuantitativeAnalysis` back. -/
def MLQuantitativeAnalysis.ofP (x : MLQuantitativeAnalysis.P) : MLQuantitativeAnalysis :=
  ⟨x.1, x.2.1⟩
/-- cyclonedx.go:1189-1192 -/
def J.mlQuantitativeAnalysisFields : JFields MLQuantitativeAnalysis.P :=
  .field "performanceMetrics" true (JCodec.pslice J.mlPerformanceMetric) <|
  .field "graphics" true (JCodec.option J.componentDataGraphics) <|
  .nil

/-- cyclonedx.go:1189-1192 -/
def J.mlQuantitativeAnalysis : JCodec MLQuantitativeAnalysis := JCodec.struct J.mlQuantitativeAnalysisFields MLQuantitativeAnalysis.toP MLQuantitativeAnalysis.ofP

/-- The fields of `MLModelCard` as a nested product. -/
abbrev MLModelCard.P := String × (Option MLModelParameters) × (Option MLQuantitativeAnalysis) × (Option MLModelCardConsiderations) × Unit
omit [FloatIO] in
/-- Collects the fields of `MLModelCard`. -/
def MLModelCard.toP (x : MLModelCard) : MLModelCard.P :=
  (x.bomRef, x.modelParameters, x.quantitativeAnalysis, x.considerations, ())
omit [FloatIO] in
/-- Puts the fields of `MLModelCard` back. -/
def MLModelCard.ofP (x : MLModelCard.P) : MLModelCard :=
  ⟨x.1, x.2.1, x.2.2.1, x.2.2.2.1⟩
/-- cyclonedx.go:1065-1070 -/
def J.mlModelCardFields : JFields MLModelCard.P :=
  .field "bom-ref" true JCodec.string <|
  .field "modelParameters" true (JCodec.option J.mlModelParameters) <|
  .field "quantitativeAnalysis" true (JCodec.option J.mlQuantitativeAnalysis) <|
  .field "considerations" true (JCodec.option J.mlModelCardConsiderations) <|
  .nil

/-- cyclonedx.go:1065-1070 -/
def J.mlModelCard : JCodec MLModelCard := JCodec.struct J.mlModelCardFields MLModelCard.toP MLModelCard.ofP

/-- The fields of `IdentifiableAction` as a nested product. -/
abbrev IdentifiableAction.P := String × String × String × Unit
omit [FloatIO] in
/-- Collects the fields of `IdentifiableAction`. -/
def IdentifiableAction.toP (x : IdentifiableAction) : IdentifiableAction.P :=
  (x.timestamp, x.name, x.email, ())
omit [FloatIO] in
/-- Puts the fields of `IdentifiableAction` back. -/
def IdentifiableAction.ofP (x : IdentifiableAction.P) : IdentifiableAction :=
  ⟨x.1, x.2.1, x.2.2.1⟩
/-- cyclonedx.go:832-836 -/
def J.identifiableActionFields : JFields IdentifiableAction.P :=
  .field "timestamp" true JCodec.string <|
  .field "name" true JCodec.string <|
  .field "email" true JCodec.string <|
  .nil

/-- cyclonedx.go:832-836 -/
def J.identifiableAction : JCodec IdentifiableAction := JCodec.struct J.identifiableActionFields IdentifiableAction.toP IdentifiableAction.ofP

/-- The fields of `Commit` as a nested product. -/
abbrev Commit.P := String × String × (Option IdentifiableAction) × (Option IdentifiableAction) × String × Unit
omit [FloatIO] in
/-- Collects the fields of `Commit`. -/
def Commit.toP (x : Commit) : Commit.P :=
  (x.uid, x.url, x.author, x.committer, x.message, ())
omit [FloatIO] in
/-- Puts the fields of `Commit` back. -/
def Commit.ofP (x : Commit.P) : Commit :=
  ⟨x.1, x.2.1, x.2.2.1, x.2.2.2.1, x.2.2.2.2.1⟩
/-- cyclonedx.go:231-237 -/
def J.commitFields : JFields Commit.P :=
  .field "uid" true JCodec.string <|
  .field "url" true JCodec.string <|
  .field "author" true (JCodec.option J.identifiableAction) <|
  .field "committer" true (JCodec.option J.identifiableAction) <|
  .field "message" true JCodec.string <|
  .nil

/-- cyclonedx.go:231-237 -/
def J.commit : JCodec Commit := JCodec.struct J.commitFields Commit.toP Commit.ofP

/-- The fields of `Diff` as a nested product. -/
abbrev Diff.P := (Option AttachedText) × String × Unit
omit [FloatIO] in
/-- Collects the fields of `Diff`. -/
def Diff.toP (x : Diff) : Diff.P :=
  (x.text, x.url, ())
omit [FloatIO] in
/-- Puts the fields of `Diff` back. -/
def Diff.ofP (x : Diff.P) : Diff :=
  ⟨x.1, x.2.1⟩
/-- cyclonedx.go:650-653 -/
def J.diffFields : JFields Diff.P :=
  .field "text" true (JCodec.option J.attachedText) <|
  .field "url" true JCodec.string <|
  .nil

/-- cyclonedx.go:650-653 -/
def J.diff : JCodec Diff := JCodec.struct J.diffFields Diff.toP Diff.ofP

/-- The fields of `Source` as a nested product. -/
abbrev Source.P := String × String × Unit
omit [FloatIO] in
/-- Collects the fields of `Source`. -/
def Source.toP (x : Source) : Source.P :=
  (x.name, x.url, ())
omit [FloatIO] in
/-- Puts the fields of `Source` back. -/
def Source.ofP (x : Source.P) : Source :=
  ⟨x.1, x.2.1⟩
/-- cyclonedx.go:1398-1401 -/
def J.sourceFields : JFields Source.P :=
  .field "name" true JCodec.string <|
  .field "url" true JCodec.string <|
  .nil

/-- cyclonedx.go:1398-1401 -/
def J.source : JCodec Source := JCodec.struct J.sourceFields Source.toP Source.ofP

/-- The fields of `Issue` as a nested product. -/
abbrev Issue.P := String × String × String × (Option Source) × (PSlice String) × IssueType × Unit
omit [FloatIO] in
/-- Collects the fields of `Issue`. -/
def Issue.toP (x : Issue) : Issue.P :=
  (x.id, x.name, x.description, x.source, x.references, x.type, ())
omit [FloatIO] in
/-- Puts the fields of `Issue` back. -/
def Issue.ofP (x : Issue.P) : Issue :=
  ⟨x.1, x.2.1, x.2.2.1, x.2.2.2.1, x.2.2.2.2.1, x.2.2.2.2.2.1⟩
/-- cyclonedx.go:892-899 -/
def J.issueFields : JFields Issue.P :=
  .field "id" false JCodec.string <|
  .field "name" true JCodec.string <|
  .field "description" false JCodec.string <|
  .field "source" true (JCodec.option J.source) <|
  .field "references" true (JCodec.pslice JCodec.string) <|
  .field "type" false JCodec.string <|
  .nil

/-- cyclonedx.go:892-899 -/
def J.issue : JCodec Issue := JCodec.struct J.issueFields Issue.toP Issue.ofP

/-- The fields of `Patch` as a nested product. -/
abbrev Patch.P := (Option Diff) × (PSlice Issue) × PatchType × Unit
omit [FloatIO] in
/-- Collects the fields of `Patch`. -/
def Patch.toP (x : Patch) : Patch.P :=
  (x.diff, x.resolves, x.type, ())
omit [FloatIO] in
/-- Puts the fields of `Patch` back. -/
def Patch.ofP (x : Patch.P) : Patch :=
  ⟨x.1, x.2.1, x.2.2.1⟩
/-- cyclonedx.go:1237-1241 -/
def J.patchFields : JFields Patch.P :=
  .field "diff" true (JCodec.option J.diff) <|
  .field "resolves" true (JCodec.pslice J.issue) <|
  .field "type" false JCodec.string <|
  .nil

/-- cyclonedx.go:1237-1241 -/
def J.patch : JCodec Patch := JCodec.struct J.patchFields Patch.toP Patch.ofP

/-- The fields of `Pedigree` as a nested product. -/
abbrev Pedigree.P (C : Type) := (PSlice C) × (PSlice C) × (PSlice C) × (PSlice Commit) × (PSlice Patch) × String × Unit
omit [FloatIO] in
/-- Collects the fields of `Pedigree`. -/
def Pedigree.toP {C : Type} (x : Pedigree C) : Pedigree.P C :=
  (x.ancestors, x.descendants, x.variants, x.commits, x.patches, x.notes, ())
omit [FloatIO] in
/-- Puts the fields of `Pedigree` back. -/
def Pedigree.ofP {C : Type} (x : Pedigree.P C) : Pedigree C :=
  ⟨x.1, x.2.1, x.2.2.1, x.2.2.2.1, x.2.2.2.2.1, x.2.2.2.2.2.1⟩
/-- cyclonedx.go:1252-1259, with the codec `C` for components. -/
def J.pedigreeFields (C : JCodec Component) : JFields (Pedigree.P Component) :=
  .field "ancestors" true (JCodec.pslice C) <|
  .field "descendants" true (JCodec.pslice C) <|
  .field "variants" true (JCodec.pslice C) <|
  .field "commits" true (JCodec.pslice J.commit) <|
  .field "patches" true (JCodec.pslice J.patch) <|
  .field "notes" true JCodec.string <|
  .nil

/-- cyclonedx.go:1252-1259, with the codec `C` for components. -/
def J.pedigree (C : JCodec Component) : JCodec (Pedigree Component) :=
  JCodec.struct (J.pedigreeFields C) Pedigree.toP Pedigree.ofP

/-- The fields of `Note` as a nested product. -/
abbrev Note.P := String × AttachedText × Unit
omit [FloatIO] in
/-- Collects the fields of `Note`. -/
def Note.toP (x : Note) : Note.P :=
  (x.locale, x.text, ())
omit [FloatIO] in
/-- Puts the fields of `Note` back. -/
def Note.ofP (x : Note.P) : Note :=
  ⟨x.1, x.2.1⟩
/-- cyclonedx.go:1206-1209 -/
def J.noteFields : JFields Note.P :=
  .field "locale" true JCodec.string <|
  .field "text" false J.attachedText <|
  .nil

/-- cyclonedx.go:1206-1209 -/
def J.note : JCodec Note := JCodec.struct J.noteFields Note.toP Note.ofP

/-- The fields of `ReleaseNotes` as a nested product. -/
abbrev ReleaseNotes.P := String × String × String × String × String × String × (PSlice String) × (PSlice String) × (PSlice Issue) × (PSlice Note) × (PSlice Property) × Unit
omit [FloatIO] in
/-- Collects the fields of `ReleaseNotes`. -/
def ReleaseNotes.toP (x : ReleaseNotes) : ReleaseNotes.P :=
  (x.type, x.title, x.featuredImage, x.socialImage, x.description, x.timestamp, x.aliases, x.tags, x.resolves, x.notes, x.properties, ())
omit [FloatIO] in
/-- Puts the fields of `ReleaseNotes` back. -/
def ReleaseNotes.ofP (x : ReleaseNotes.P) : ReleaseNotes :=
  ⟨x.1, x.2.1, x.2.2.1, x.2.2.2.1, x.2.2.2.2.1, x.2.2.2.2.2.1, x.2.2.2.2.2.2.1, x.2.2.2.2.2.2.2.1, x.2.2.2.2.2.2.2.2.1, x.2.2.2.2.2.2.2.2.2.1, x.2.2.2.2.2.2.2.2.2.2.1⟩
/-- cyclonedx.go:1323-1335 -/
def J.releaseNotesFields : JFields ReleaseNotes.P :=
  .field "type" false JCodec.string <|
  .field "title" true JCodec.string <|
  .field "featuredImage" true JCodec.string <|
  .field "socialImage" true JCodec.string <|
  .field "description" true JCodec.string <|
  .field "timestamp" true JCodec.string <|
  .field "aliases" true (JCodec.pslice JCodec.string) <|
  .field "tags" true (JCodec.pslice JCodec.string) <|
  .field "resolves" true (JCodec.pslice J.issue) <|
  .field "notes" true (JCodec.pslice J.note) <|
  .field "properties" true (JCodec.pslice J.property) <|
  .nil

/-- cyclonedx.go:1323-1335 -/
def J.releaseNotes : JCodec ReleaseNotes := JCodec.struct J.releaseNotesFields ReleaseNotes.toP ReleaseNotes.ofP

/-- The fields of `SWID` as a nested product. -/
abbrev SWID.P := (Option AttachedText) × String × String × String × String × (Option Int) × (Option Bool) × Unit
omit [FloatIO] in
/-- Collects the fields of `SWID`. -/
def SWID.toP (x : SWID) : SWID.P :=
  (x.text, x.url, x.tagID, x.name, x.version, x.tagVersion, x.patch, ())
omit [FloatIO] in
/-- Puts the fields of `SWID` back. -/
def SWID.ofP (x : SWID.P) : SWID :=
  ⟨x.1, x.2.1, x.2.2.1, x.2.2.2.1, x.2.2.2.2.1, x.2.2.2.2.2.1, x.2.2.2.2.2.2.1⟩
/-- cyclonedx.go:1449-1457 -/
def J.swidFields : JFields SWID.P :=
  .field "text" true (JCodec.option J.attachedText) <|
  .field "url" true JCodec.string <|
  .field "tagId" false JCodec.string <|
  .field "name" false JCodec.string <|
  .field "version" true JCodec.string <|
  .field "tagVersion" true (JCodec.option JCodec.int) <|
  .field "patch" true (JCodec.option JCodec.bool) <|
  .nil

/-- cyclonedx.go:1449-1457 -/
def J.swid : JCodec SWID := JCodec.struct J.swidFields SWID.toP SWID.ofP

/-- cyclonedx_json.go:303-349.  `UnmarshalJSON` reads the three members as `*json.RawMessage`: each is
the last member with that name, nil if it is missing or `null`. -/
def J.asserterChoice : JCodec AsserterChoice where
  enc c :=
    match c.organization, c.individual, c.bomRef with
    | some o, _, _ => (J.organizationalEntity.enc o).map fun j => .obj [("organization", j)]
    | none, some i, _ => (J.organizationalContact.enc i).map fun j => .obj [("individual", j)]
    | none, none, some r => (J.bomReference.enc r).map fun j => .obj [("ref", j)]
    | none, none, none => some (.obj [])
  dec j c := match j with
    | .null => some c
    | .obj ms =>
      match J.rawMember "organization" ms, J.rawMember "individual" ms, J.rawMember "ref" ms with
      | some j, _, _ => (J.organizationalEntity.dec j {}).map fun o => { c with organization := some o }
      | none, some j, _ => (J.organizationalContact.dec j {}).map fun i => { c with individual := some i }
      | none, none, some j => (J.bomReference.dec j {}).map fun r => { c with bomRef := some r }
      | none, none, none => some c
    | _ => none
  zero := {}
  empty _ := false
  norm c :=
    match c.organization, c.individual, c.bomRef with
    | some o, _, _ => { organization := some (J.organizationalEntity.norm o) }
    | none, some i, _ => { individual := some (J.organizationalContact.norm i) }
    | none, none, some r => { bomRef := some r }
    | none, none, none => {}
  good c :=
    match c.organization, c.individual with
    | some o, _ => J.organizationalEntity.good o
    | none, some i => J.organizationalContact.good i
    | none, none => True

/-- The fields of `PatentAssertion` as a nested product. -/
abbrev PatentAssertion.P := String × (PSlice BOMReference) × PatentAssertionType × (Option AsserterChoice) × String × Unit
omit [FloatIO] in
/-- Collects the fields of `PatentAssertion`. -/
def PatentAssertion.toP (x : PatentAssertion) : PatentAssertion.P :=
  (x.bomRef, x.patentRefs, x.assertionType, x.asserter, x.notes, ())
omit [FloatIO] in
/-- Puts the fields of `PatentAssertion` back. -/
def PatentAssertion.ofP (x : PatentAssertion.P) : PatentAssertion :=
  ⟨x.1, x.2.1, x.2.2.1, x.2.2.2.1, x.2.2.2.2.1⟩
/-- cyclonedx.go:1779-1785 -/
def J.patentAssertionFields : JFields PatentAssertion.P :=
  .field "bom-ref" true JCodec.string <|
  .field "patentRefs" true (JCodec.pslice J.bomReference) <|
  .field "assertionType" false JCodec.string <|
  .field "asserter" false (JCodec.option J.asserterChoice) <|
  .field "notes" true JCodec.string <|
  .nil

/-- cyclonedx.go:1779-1785 -/
def J.patentAssertion : JCodec PatentAssertion := JCodec.struct J.patentAssertionFields PatentAssertion.toP PatentAssertion.ofP

/-- The fields of `Component` as a nested product. -/
abbrev Component.P := String × String × ComponentType × (Option OrganizationalEntity) × (Option OrganizationalEntity) × String × (PSlice OrganizationalContact) × String × String × String × String × String × Scope × (PSlice Hash) × (PSlice LicenseChoice) × String × String × String × (PSlice String) × (PSlice String) × (Option SWID) × (Option Bool) × (Option (Pedigree Component)) × (PSlice ExternalReference) × (PSlice Property) × (PSlice Component) × (Option Evidence) × (Option ReleaseNotes) × (Option MLModelCard) × (PSlice ComponentData) × (Option CryptoProperties) × (PSlice String) × (Option Bool) × (PSlice PatentAssertion) × String × (Option JSFSignature) × Unit
omit [FloatIO] in
/-- Collects the fields of `Component`. -/
def Component.toP (x : Component) : Component.P :=
  (x.bomRef, x.mimeType, x.type, x.supplier, x.manufacturer, x.author, x.authors, x.publisher, x.group, x.name, x.version, x.description, x.scope, x.hashes, x.licenses, x.copyright, x.cpe, x.packageURL, x.omniborID, x.swhid, x.swid, x.modified, x.pedigree, x.externalReferences, x.properties, x.components, x.evidence, x.releaseNotes, x.modelCard, x.data, x.cryptoProperties, x.tags, x.isExternal, x.patentAssertions, x.versionRange, x.signature, ())
omit [FloatIO] in
/-- Puts the fields of `Component` back. -/
def Component.ofP (x : Component.P) : Component :=
  ⟨x.1, x.2.1, x.2.2.1, x.2.2.2.1, x.2.2.2.2.1, x.2.2.2.2.2.1, x.2.2.2.2.2.2.1, x.2.2.2.2.2.2.2.1, x.2.2.2.2.2.2.2.2.1, x.2.2.2.2.2.2.2.2.2.1, x.2.2.2.2.2.2.2.2.2.2.1, x.2.2.2.2.2.2.2.2.2.2.2.1, x.2.2.2.2.2.2.2.2.2.2.2.2.1, x.2.2.2.2.2.2.2.2.2.2.2.2.2.1, x.2.2.2.2.2.2.2.2.2.2.2.2.2.2.1, x.2.2.2.2.2.2.2.2.2.2.2.2.2.2.2.1, x.2.2.2.2.2.2.2.2.2.2.2.2.2.2.2.2.1, x.2.2.2.2.2.2.2.2.2.2.2.2.2.2.2.2.2.1, x.2.2.2.2.2.2.2.2.2.2.2.2.2.2.2.2.2.2.1, x.2.2.2.2.2.2.2.2.2.2.2.2.2.2.2.2.2.2.2.1, x.2.2.2.2.2.2.2.2.2.2.2.2.2.2.2.2.2.2.2.2.1, x.2.2.2.2.2.2.2.2.2.2.2.2.2.2.2.2.2.2.2.2.2.1, x.2.2.2.2.2.2.2.2.2.2.2.2.2.2.2.2.2.2.2.2.2.2.1, x.2.2.2.2.2.2.2.2.2.2.2.2.2.2.2.2.2.2.2.2.2.2.2.1, x.2.2.2.2.2.2.2.2.2.2.2.2.2.2.2.2.2.2.2.2.2.2.2.2.1, x.2.2.2.2.2.2.2.2.2.2.2.2.2.2.2.2.2.2.2.2.2.2.2.2.2.1, x.2.2.2.2.2.2.2.2.2.2.2.2.2.2.2.2.2.2.2.2.2.2.2.2.2.2.1, x.2.2.2.2.2.2.2.2.2.2.2.2.2.2.2.2.2.2.2.2.2.2.2.2.2.2.2.1, x.2.2.2.2.2.2.2.2.2.2.2.2.2.2.2.2.2.2.2.2.2.2.2.2.2.2.2.2.1, x.2.2.2.2.2.2.2.2.2.2.2.2.2.2.2.2.2.2.2.2.2.2.2.2.2.2.2.2.2.1, x.2.2.2.2.2.2.2.2.2.2.2.2.2.2.2.2.2.2.2.2.2.2.2.2.2.2.2.2.2.2.1, x.2.2.2.2.2.2.2.2.2.2.2.2.2.2.2.2.2.2.2.2.2.2.2.2.2.2.2.2.2.2.2.1, x.2.2.2.2.2.2.2.2.2.2.2.2.2.2.2.2.2.2.2.2.2.2.2.2.2.2.2.2.2.2.2.2.1, x.2.2.2.2.2.2.2.2.2.2.2.2.2.2.2.2.2.2.2.2.2.2.2.2.2.2.2.2.2.2.2.2.2.1, x.2.2.2.2.2.2.2.2.2.2.2.2.2.2.2.2.2.2.2.2.2.2.2.2.2.2.2.2.2.2.2.2.2.2.1, x.2.2.2.2.2.2.2.2.2.2.2.2.2.2.2.2.2.2.2.2.2.2.2.2.2.2.2.2.2.2.2.2.2.2.2.1⟩
/-- cyclonedx.go:239-276, with the codec `C` for nested components. -/
def J.componentFields (C : JCodec Component) : JFields Component.P :=
  .field "bom-ref" true JCodec.string <|
  .field "mime-type" true JCodec.string <|
  .field "type" false JCodec.string <|
  .field "supplier" true (JCodec.option J.organizationalEntity) <|
  .field "manufacturer" true (JCodec.option J.organizationalEntity) <|
  .field "author" true JCodec.string <|
  .field "authors" true (JCodec.pslice J.organizationalContact) <|
  .field "publisher" true JCodec.string <|
  .field "group" true JCodec.string <|
  .field "name" false JCodec.string <|
  .field "version" true JCodec.string <|
  .field "description" true JCodec.string <|
  .field "scope" true JCodec.string <|
  .field "hashes" true (JCodec.pslice J.hash) <|
  .field "licenses" true (JCodec.pslice J.licenseChoice) <|
  .field "copyright" true JCodec.string <|
  .field "cpe" true JCodec.string <|
  .field "purl" true JCodec.string <|
  .field "omniborId" true (JCodec.pslice JCodec.string) <|
  .field "swhid" true (JCodec.pslice JCodec.string) <|
  .field "swid" true (JCodec.option J.swid) <|
  .field "modified" true (JCodec.option JCodec.bool) <|
  .field "pedigree" true (JCodec.option (J.pedigree C)) <|
  .field "externalReferences" true (JCodec.pslice J.externalReference) <|
  .field "properties" true (JCodec.pslice J.property) <|
  .field "components" true (JCodec.pslice C) <|
  .field "evidence" true (JCodec.option J.evidence) <|
  .field "releaseNotes" true (JCodec.option J.releaseNotes) <|
  .field "modelCard" true (JCodec.option J.mlModelCard) <|
  .field "data" true (JCodec.pslice J.componentData) <|
  .field "cryptoProperties" true (JCodec.option J.cryptoProperties) <|
  .field "tags" true (JCodec.pslice JCodec.string) <|
  .field "isExternal" true (JCodec.option JCodec.bool) <|
  .field "patentAssertions" true (JCodec.pslice J.patentAssertion) <|
  .field "versionRange" true JCodec.string <|
  .field "signature" true (JCodec.option J.jsfSignature) <|
  .nil

/-- cyclonedx.go:239-276, with the codec `C` for nested components. -/
def J.componentWith (C : JCodec Component) : JCodec Component :=
  JCodec.struct (J.componentFields C) Component.toP Component.ofP

/-- The codec of components nested less than `n` deep. -/
def J.componentN : Nat → JCodec Component
  | 0 => J.bottom {}
  | n + 1 => J.componentWith (J.componentN n)

/-- cyclonedx.go:239-276: a component of any depth.  It satisfies the recursive equations of the Go
type (`Verif.component_enc`, `component_dec`). -/
def J.component : JCodec Component := J.knot {} J.componentN Component.height

/-- The fields of `DataClassification` as a nested product. -/
abbrev DataClassification.P := DataFlow × String × String × String × (Option DataGovernance) × (PSlice String) × (PSlice String) × Unit
omit [FloatIO] in
/-- Collects the fields of `DataClassification`. -/
def DataClassification.toP (x : DataClassification) : DataClassification.P :=
  (x.flow, x.classification, x.name, x.description, x.governance, x.source, x.destination, ())
omit [FloatIO] in
/-- Puts the fields of `DataClassification` back. -/
def DataClassification.ofP (x : DataClassification.P) : DataClassification :=
  ⟨x.1, x.2.1, x.2.2.1, x.2.2.2.1, x.2.2.2.2.1, x.2.2.2.2.2.1, x.2.2.2.2.2.2.1⟩
/-- cyclonedx.go:551-559 -/
def J.dataClassificationFields : JFields DataClassification.P :=
  .field "flow" false JCodec.string <|
  .field "classification" false JCodec.string <|
  .field "name" true JCodec.string <|
  .field "description" true JCodec.string <|
  .field "governance" true (JCodec.option J.dataGovernance) <|
  .field "source" true (JCodec.pslice JCodec.string) <|
  .field "destination" true (JCodec.pslice JCodec.string) <|
  .nil

/-- cyclonedx.go:551-559 -/
def J.dataClassification : JCodec DataClassification := JCodec.struct J.dataClassificationFields DataClassification.toP DataClassification.ofP

/-- The fields of `Service` as a nested product. -/
abbrev Service.P := String × (Option OrganizationalEntity) × String × String × String × String × (PSlice String) × (Option Bool) × (Option Bool) × (PSlice DataClassification) × (PSlice LicenseChoice) × (PSlice ExternalReference) × (PSlice Property) × (PSlice Service) × (Option ReleaseNotes) × (PSlice String) × String × (PSlice PatentAssertion) × (Option JSFSignature) × Unit
omit [FloatIO] in
/-- Collects the fields of `Service`. -/
def Service.toP (x : Service) : Service.P :=
  (x.bomRef, x.provider, x.group, x.name, x.version, x.description, x.endpoints, x.authenticated, x.crossesTrustBoundary, x.data, x.licenses, x.externalReferences, x.properties, x.services, x.releaseNotes, x.tags, x.trustZone, x.patentAssertions, x.signature, ())
omit [FloatIO] in
/-- Puts the fields of `Service` back. -/
def Service.ofP (x : Service.P) : Service :=
  ⟨x.1, x.2.1, x.2.2.1, x.2.2.2.1, x.2.2.2.2.1, x.2.2.2.2.2.1, x.2.2.2.2.2.2.1, x.2.2.2.2.2.2.2.1, x.2.2.2.2.2.2.2.2.1, x.2.2.2.2.2.2.2.2.2.1, x.2.2.2.2.2.2.2.2.2.2.1, x.2.2.2.2.2.2.2.2.2.2.2.1, x.2.2.2.2.2.2.2.2.2.2.2.2.1, x.2.2.2.2.2.2.2.2.2.2.2.2.2.1, x.2.2.2.2.2.2.2.2.2.2.2.2.2.2.1, x.2.2.2.2.2.2.2.2.2.2.2.2.2.2.2.1, x.2.2.2.2.2.2.2.2.2.2.2.2.2.2.2.2.1, x.2.2.2.2.2.2.2.2.2.2.2.2.2.2.2.2.2.1, x.2.2.2.2.2.2.2.2.2.2.2.2.2.2.2.2.2.2.1⟩
/-- cyclonedx.go:1362-1382, with the codec `C` for nested services. -/
def J.serviceFields (C : JCodec Service) : JFields Service.P :=
  .field "bom-ref" true JCodec.string <|
  .field "provider" true (JCodec.option J.organizationalEntity) <|
  .field "group" true JCodec.string <|
  .field "name" false JCodec.string <|
  .field "version" true JCodec.string <|
  .field "description" true JCodec.string <|
  .field "endpoints" true (JCodec.pslice JCodec.string) <|
  .field "authenticated" true (JCodec.option JCodec.bool) <|
  .field "x-trust-boundary" true (JCodec.option JCodec.bool) <|
  .field "data" true (JCodec.pslice J.dataClassification) <|
  .field "licenses" true (JCodec.pslice J.licenseChoice) <|
  .field "externalReferences" true (JCodec.pslice J.externalReference) <|
  .field "properties" true (JCodec.pslice J.property) <|
  .field "services" true (JCodec.pslice C) <|
  .field "releaseNotes" true (JCodec.option J.releaseNotes) <|
  .field "tags" true (JCodec.pslice JCodec.string) <|
  .field "trustZone" true JCodec.string <|
  .field "patentAssertions" true (JCodec.pslice J.patentAssertion) <|
  .field "signature" true (JCodec.option J.jsfSignature) <|
  .nil

/-- cyclonedx.go:1362-1382, with the codec `C` for nested services. -/
def J.serviceWith (C : JCodec Service) : JCodec Service :=
  JCodec.struct (J.serviceFields C) Service.toP Service.ofP

/-- The codec of services nested less than `n` deep. -/
def J.serviceN : Nat → JCodec Service
  | 0 => J.bottom {}
  | n + 1 => J.serviceWith (J.serviceN n)

/-- cyclonedx.go:1362-1382: a service of any depth (`Verif.service_enc`, `service_dec`). -/
def J.service : JCodec Service := J.knot {} J.serviceN Service.height

/-- The fields of `Annotator` as a nested product. -/
abbrev Annotator.P := (Option OrganizationalEntity) × (Option OrganizationalContact) × (Option Component) × (Option Service) × Unit
omit [FloatIO] in
/-- Collects the fields of `Annotator`. -/
def Annotator.toP (x : Annotator) : Annotator.P :=
  (x.organization, x.individual, x.component, x.service, ())
omit [FloatIO] in
/-- Puts the fields of `Annotator` back. -/
def Annotator.ofP (x : Annotator.P) : Annotator :=
  ⟨x.1, x.2.1, x.2.2.1, x.2.2.2.1⟩
/-- cyclonedx.go:60-65 -/
def J.annotatorFields : JFields Annotator.P :=
  .field "organization" true (JCodec.option J.organizationalEntity) <|
  .field "individual" true (JCodec.option J.organizationalContact) <|
  .field "component" true (JCodec.option J.component) <|
  .field "service" true (JCodec.option J.service) <|
  .nil

/-- cyclonedx.go:60-65 -/
def J.annotator : JCodec Annotator := JCodec.struct J.annotatorFields Annotator.toP Annotator.ofP

/-- The fields of `Annotation` as a nested product. -/
abbrev Annotation.P := String × (PSlice BOMReference) × (Option Annotator) × String × String × (Option JSFSignature) × Unit
omit [FloatIO] in
/-- Collects the fields of `Annotation`. -/
def Annotation.toP (x : Annotation) : Annotation.P :=
  (x.bomRef, x.subjects, x.annotator, x.timestamp, x.text, x.signature, ())
omit [FloatIO] in
/-- Puts the fields of `Annotation` back. -/
def Annotation.ofP (x : Annotation.P) : Annotation :=
  ⟨x.1, x.2.1, x.2.2.1, x.2.2.2.1, x.2.2.2.2.1, x.2.2.2.2.2.1⟩
/-- cyclonedx.go:51-58 -/
def J.annotationFields : JFields Annotation.P :=
  .field "bom-ref" true JCodec.string <|
  .field "subjects" true (JCodec.pslice J.bomReference) <|
  .field "annotator" true (JCodec.option J.annotator) <|
  .field "timestamp" true JCodec.string <|
  .field "text" true JCodec.string <|
  .field "signature" true (JCodec.option J.jsfSignature) <|
  .nil

/-- cyclonedx.go:51-58 -/
def J.annotation : JCodec Annotation := JCodec.struct J.annotationFields Annotation.toP Annotation.ofP

/-- The fields of `Assessor` as a nested product. -/
abbrev Assessor.P := BOMReference × Bool × (Option OrganizationalEntity) × Unit
omit [FloatIO] in
/-- Collects the fields of `Assessor`. -/
def Assessor.toP (x : Assessor) : Assessor.P :=
  (x.bomRef, x.thirdParty, x.organization, ())
omit [FloatIO] in
/-- Puts the fields of `Assessor` back. -/
def Assessor.ofP (x : Assessor.P) : Assessor :=
  ⟨x.1, x.2.1, x.2.2.1⟩
/-- cyclonedx.go:67-71 -/
def J.assessorFields : JFields Assessor.P :=
  .field "bom-ref" true J.bomReference <|
  .field "thirdParty" true JCodec.bool <|
  .field "organization" true (JCodec.option J.organizationalEntity) <|
  .nil

/-- cyclonedx.go:67-71 -/
def J.assessor : JCodec Assessor := JCodec.struct J.assessorFields Assessor.toP Assessor.ofP

/-- The fields of `AttestationConformance` as a nested product. -/
abbrev AttestationConformance.P := (Option F64) × String × (PSlice BOMReference) × Unit
omit [FloatIO] in
/-- Collects the fields of `AttestationConformance`. -/
def AttestationConformance.toP (x : AttestationConformance) : AttestationConformance.P :=
  (x.score, x.rationale, x.mitigationStrategies, ())
omit [FloatIO] in
/-- Puts the fields of `AttestationConformance` back. -/
def AttestationConformance.ofP (x : AttestationConformance.P) : AttestationConformance :=
  ⟨x.1, x.2.1, x.2.2.1⟩
/-- cyclonedx.go:94-98 -/
def J.attestationConformanceFields : JFields AttestationConformance.P :=
  .field "score" true (JCodec.option JCodec.f64) <|
  .field "rationale" true JCodec.string <|
  .field "mitigationStrategies" true (JCodec.pslice J.bomReference) <|
  .nil

/-- cyclonedx.go:94-98 -/
def J.attestationConformance : JCodec AttestationConformance := JCodec.struct J.attestationConformanceFields AttestationConformance.toP AttestationConformance.ofP

/-- The fields of `AttestationConfidence` as a nested product. -/
abbrev AttestationConfidence.P := (Option F64) × String × Unit
omit [FloatIO] in
/-- Collects the fields of `AttestationConfidence`. -/
def AttestationConfidence.toP (x : AttestationConfidence) : AttestationConfidence.P :=
  (x.score, x.rationale, ())
omit [FloatIO] in
/-- Puts the fields of `AttestationConfidence` back. -/
def AttestationConfidence.ofP (x : AttestationConfidence.P) : AttestationConfidence :=
  ⟨x.1, x.2.1⟩
/-- cyclonedx.go:100-103 -/
def J.attestationConfidenceFields : JFields AttestationConfidence.P :=
  .field "score" true (JCodec.option JCodec.f64) <|
  .field "rationale" true JCodec.string <|
  .nil

/-- cyclonedx.go:100-103 -/
def J.attestationConfidence : JCodec AttestationConfidence := JCodec.struct J.attestationConfidenceFields AttestationConfidence.toP AttestationConfidence.ofP

/-- The fields of `AttestationMap` as a nested product. -/
abbrev AttestationMap.P := String × (PSlice BOMReference) × (PSlice BOMReference) × (Option AttestationConformance) × (Option AttestationConfidence) × Unit
omit [FloatIO] in
/-- Collects the fields of `AttestationMap`. -/
def AttestationMap.toP (x : AttestationMap) : AttestationMap.P :=
  (x.requirement, x.claims, x.counterClaims, x.conformance, x.confidence, ())
omit [FloatIO] in
/-- Puts the fields of `AttestationMap` back. -/
def AttestationMap.ofP (x : AttestationMap.P) : AttestationMap :=
  ⟨x.1, x.2.1, x.2.2.1, x.2.2.2.1, x.2.2.2.2.1⟩
/-- cyclonedx.go:86-92 -/
def J.attestationMapFields : JFields AttestationMap.P :=
  .field "requirement" true JCodec.string <|
  .field "claims" true (JCodec.pslice J.bomReference) <|
  .field "counterClaims" true (JCodec.pslice J.bomReference) <|
  .field "conformance" true (JCodec.option J.attestationConformance) <|
  .field "confidence" true (JCodec.option J.attestationConfidence) <|
  .nil

/-- cyclonedx.go:86-92 -/
def J.attestationMap : JCodec AttestationMap := JCodec.struct J.attestationMapFields AttestationMap.toP AttestationMap.ofP

/-- The fields of `Attestation` as a nested product. -/
abbrev Attestation.P := String × BOMReference × (PSlice AttestationMap) × (Option JSFSignature) × Unit
omit [FloatIO] in
/-- Collects the fields of `Attestation`. -/
def Attestation.toP (x : Attestation) : Attestation.P :=
  (x.summary, x.assessor, x.map, x.signature, ())
omit [FloatIO] in
/-- Puts the fields of `Attestation` back. -/
def Attestation.ofP (x : Attestation.P) : Attestation :=
  ⟨x.1, x.2.1, x.2.2.1, x.2.2.2.1⟩
/-- cyclonedx.go:79-84 -/
def J.attestationFields : JFields Attestation.P :=
  .field "summary" true JCodec.string <|
  .field "assessor" true J.bomReference <|
  .field "map" true (JCodec.pslice J.attestationMap) <|
  .field "signature" true (JCodec.option J.jsfSignature) <|
  .nil

/-- cyclonedx.go:79-84 -/
def J.attestation : JCodec Attestation := JCodec.struct J.attestationFields Attestation.toP Attestation.ofP

/-- The fields of `Composition` as a nested product. -/
abbrev Composition.P := String × CompositionAggregate × (PSlice BOMReference) × (PSlice BOMReference) × (PSlice BOMReference) × (Option JSFSignature) × Unit
omit [FloatIO] in
/-- Collects the fields of `Composition`. -/
def Composition.toP (x : Composition) : Composition.P :=
  (x.bomRef, x.aggregate, x.assemblies, x.dependencies, x.vulnerabilities, x.signature, ())
omit [FloatIO] in
/-- Puts the fields of `Composition` back. -/
def Composition.ofP (x : Composition.P) : Composition :=
  ⟨x.1, x.2.1, x.2.2.1, x.2.2.2.1, x.2.2.2.2.1, x.2.2.2.2.2.1⟩
/-- cyclonedx.go:321-328 -/
def J.compositionFields : JFields Composition.P :=
  .field "bom-ref" true JCodec.string <|
  .field "aggregate" false JCodec.string <|
  .field "assemblies" true (JCodec.pslice J.bomReference) <|
  .field "dependencies" true (JCodec.pslice J.bomReference) <|
  .field "vulnerabilities" true (JCodec.pslice J.bomReference) <|
  .field "signature" true (JCodec.option J.jsfSignature) <|
  .nil

/-- cyclonedx.go:321-328 -/
def J.composition : JCodec Composition := JCodec.struct J.compositionFields Composition.toP Composition.ofP

/-- The fields of `Claim` as a nested product. -/
abbrev Claim.P := String × BOMReference × String × (PSlice BOMReference) × String × (PSlice BOMReference) × (PSlice BOMReference) × (PSlice ExternalReference) × (Option JSFSignature) × Unit
omit [FloatIO] in
/-- Collects the fields of `Claim`. -/
def Claim.toP (x : Claim) : Claim.P :=
  (x.bomRef, x.target, x.predicate, x.mitigationStrategies, x.reasoning, x.evidence, x.counterEvidence, x.externalReferences, x.signature, ())
omit [FloatIO] in
/-- Puts the fields of `Claim` back. -/
def Claim.ofP (x : Claim.P) : Claim :=
  ⟨x.1, x.2.1, x.2.2.1, x.2.2.2.1, x.2.2.2.2.1, x.2.2.2.2.2.1, x.2.2.2.2.2.2.1, x.2.2.2.2.2.2.2.1, x.2.2.2.2.2.2.2.2.1⟩
/-- cyclonedx.go:193-203 -/
def J.claimFields : JFields Claim.P :=
  .field "bom-ref" true JCodec.string <|
  .field "target" true J.bomReference <|
  .field "predicate" true JCodec.string <|
  .field "mitigationStrategies" true (JCodec.pslice J.bomReference) <|
  .field "reasoning" true JCodec.string <|
  .field "evidence" true (JCodec.pslice J.bomReference) <|
  .field "counterEvidence" true (JCodec.pslice J.bomReference) <|
  .field "externalReferences" true (JCodec.pslice J.externalReference) <|
  .field "signature" true (JCodec.option J.jsfSignature) <|
  .nil

/-- cyclonedx.go:193-203 -/
def J.claim : JCodec Claim := JCodec.struct J.claimFields Claim.toP Claim.ofP

/-- The fields of `EvidenceDataContents` as a nested product. -/
abbrev EvidenceDataContents.P := (Option AttachedText) × String × Unit
omit [FloatIO] in
/-- Collects the fields of `EvidenceDataContents`. -/
def EvidenceDataContents.toP (x : EvidenceDataContents) : EvidenceDataContents.P :=
  (x.attachment, x.url, ())
omit [FloatIO] in
/-- Puts the fields of `EvidenceDataContents` back. -/
def EvidenceDataContents.ofP (x : EvidenceDataContents.P) : EvidenceDataContents :=
  ⟨x.1, x.2.1⟩
/-- cyclonedx.go:619-622 -/
def J.evidenceDataContentsFields : JFields EvidenceDataContents.P :=
  .field "attachment" true (JCodec.option J.attachedText) <|
  .field "url" true JCodec.string <|
  .nil

/-- cyclonedx.go:619-622 -/
def J.evidenceDataContents : JCodec EvidenceDataContents := JCodec.struct J.evidenceDataContentsFields EvidenceDataContents.toP EvidenceDataContents.ofP

/-- The fields of `EvidenceData` as a nested product. -/
abbrev EvidenceData.P := String × (Option EvidenceDataContents) × (Option DataClassification) × (PSlice String) × (Option DataGovernance) × Unit
omit [FloatIO] in
/-- Collects the fields of `EvidenceData`. -/
def EvidenceData.toP (x : EvidenceData) : EvidenceData.P :=
  (x.name, x.contents, x.classification, x.sensitiveData, x.governance, ())
omit [FloatIO] in
/-- Puts the fields of `EvidenceData` back. -/
def EvidenceData.ofP (x : EvidenceData.P) : EvidenceData :=
  ⟨x.1, x.2.1, x.2.2.1, x.2.2.2.1, x.2.2.2.2.1⟩
/-- cyclonedx.go:611-617 -/
def J.evidenceDataFields : JFields EvidenceData.P :=
  .field "name" true JCodec.string <|
  .field "contents" true (JCodec.option J.evidenceDataContents) <|
  .field "classification" true (JCodec.option J.dataClassification) <|
  .field "sensitiveData" true (JCodec.pslice JCodec.string) <|
  .field "governance" true (JCodec.option J.dataGovernance) <|
  .nil

/-- cyclonedx.go:611-617 -/
def J.evidenceData : JCodec EvidenceData := JCodec.struct J.evidenceDataFields EvidenceData.toP EvidenceData.ofP

/-- The fields of `DeclarationEvidence` as a nested product. -/
abbrev DeclarationEvidence.P := String × String × String × (PSlice EvidenceData) × String × String × (Option OrganizationalContact) × (Option OrganizationalContact) × (Option JSFSignature) × Unit
omit [FloatIO] in
/-- Collects the fields of `DeclarationEvidence`. -/
def DeclarationEvidence.toP (x : DeclarationEvidence) : DeclarationEvidence.P :=
  (x.bomRef, x.propertyName, x.description, x.data, x.created, x.expires, x.author, x.reviewer, x.signature, ())
omit [FloatIO] in
/-- Puts the fields of `DeclarationEvidence` back. -/
def DeclarationEvidence.ofP (x : DeclarationEvidence.P) : DeclarationEvidence :=
  ⟨x.1, x.2.1, x.2.2.1, x.2.2.2.1, x.2.2.2.2.1, x.2.2.2.2.2.1, x.2.2.2.2.2.2.1, x.2.2.2.2.2.2.2.1, x.2.2.2.2.2.2.2.2.1⟩
/-- cyclonedx.go:586-596 -/
def J.declarationEvidenceFields : JFields DeclarationEvidence.P :=
  .field "bom-ref" true JCodec.string <|
  .field "propertyName" true JCodec.string <|
  .field "description" true JCodec.string <|
  .field "data" true (JCodec.pslice J.evidenceData) <|
  .field "created" true JCodec.string <|
  .field "expires" true JCodec.string <|
  .field "author" true (JCodec.option J.organizationalContact) <|
  .field "reviewer" true (JCodec.option J.organizationalContact) <|
  .field "signature" true (JCodec.option J.jsfSignature) <|
  .nil

/-- cyclonedx.go:586-596 -/
def J.declarationEvidence : JCodec DeclarationEvidence := JCodec.struct J.declarationEvidenceFields DeclarationEvidence.toP DeclarationEvidence.ofP

/-- The fields of `Targets` as a nested product. -/
abbrev Targets.P := (PSlice OrganizationalEntity) × (PSlice Component) × (PSlice Service) × Unit
omit [FloatIO] in
/-- Collects the fields of `Targets`. -/
def Targets.toP (x : Targets) : Targets.P :=
  (x.organizations, x.components, x.services, ())
omit [FloatIO] in
/-- Puts the fields of `Targets` back. -/
def Targets.ofP (x : Targets.P) : Targets :=
  ⟨x.1, x.2.1, x.2.2.1⟩
/-- cyclonedx.go:624-628 -/
def J.targetsFields : JFields Targets.P :=
  .field "organizations" true (JCodec.pslice J.organizationalEntity) <|
  .field "components" true (JCodec.pslice J.component) <|
  .field "services" true (JCodec.pslice J.service) <|
  .nil

/-- cyclonedx.go:624-628 -/
def J.targets : JCodec Targets := JCodec.struct J.targetsFields Targets.toP Targets.ofP

/-- The fields of `Signatory` as a nested product. -/
abbrev Signatory.P := String × String × (Option JSFSignature) × (Option OrganizationalEntity) × (Option ExternalReference) × Unit
omit [FloatIO] in
/-- Collects the fields of `Signatory`. -/
def Signatory.toP (x : Signatory) : Signatory.P :=
  (x.name, x.role, x.signature, x.organization, x.externalReference, ())
omit [FloatIO] in
/-- Puts the fields of `Signatory` back. -/
def Signatory.ofP (x : Signatory.P) : Signatory :=
  ⟨x.1, x.2.1, x.2.2.1, x.2.2.2.1, x.2.2.2.2.1⟩
/-- cyclonedx.go:636-642 -/
def J.signatoryFields : JFields Signatory.P :=
  .field "name" true JCodec.string <|
  .field "role" true JCodec.string <|
  .field "signature" true (JCodec.option J.jsfSignature) <|
  .field "organization" true (JCodec.option J.organizationalEntity) <|
  .field "externalReference" true (JCodec.option J.externalReference) <|
  .nil

/-- cyclonedx.go:636-642 -/
def J.signatory : JCodec Signatory := JCodec.struct J.signatoryFields Signatory.toP Signatory.ofP

/-- The fields of `Affirmation` as a nested product. -/
abbrev Affirmation.P := String × (PSlice Signatory) × (Option JSFSignature) × Unit
omit [FloatIO] in
/-- Collects the fields of `Affirmation`. -/
def Affirmation.toP (x : Affirmation) : Affirmation.P :=
  (x.statement, x.signatories, x.signature, ())
omit [FloatIO] in
/-- Puts the fields of `Affirmation` back. -/
def Affirmation.ofP (x : Affirmation.P) : Affirmation :=
  ⟨x.1, x.2.1, x.2.2.1⟩
/-- cyclonedx.go:630-634 -/
def J.affirmationFields : JFields Affirmation.P :=
  .field "statement" true JCodec.string <|
  .field "signatories" true (JCodec.pslice J.signatory) <|
  .field "signature" true (JCodec.option J.jsfSignature) <|
  .nil

/-- cyclonedx.go:630-634 -/
def J.affirmation : JCodec Affirmation := JCodec.struct J.affirmationFields Affirmation.toP Affirmation.ofP

/-- The fields of `Declarations` as a nested product. -/
abbrev Declarations.P := (PSlice Assessor) × (PSlice Attestation) × (PSlice Claim) × (PSlice DeclarationEvidence) × (Option Targets) × (Option Affirmation) × (Option JSFSignature) × Unit
omit [FloatIO] in
/-- Collects the fields of `Declarations`. -/
def Declarations.toP (x : Declarations) : Declarations.P :=
  (x.assessors, x.attestations, x.claims, x.evidence, x.targets, x.affirmation, x.signature, ())
omit [FloatIO] in
/-- Puts the fields of `Declarations` back. -/
def Declarations.ofP (x : Declarations.P) : Declarations :=
  ⟨x.1, x.2.1, x.2.2.1, x.2.2.2.1, x.2.2.2.2.1, x.2.2.2.2.2.1, x.2.2.2.2.2.2.1⟩
/-- cyclonedx.go:576-584 -/
def J.declarationsFields : JFields Declarations.P :=
  .field "assessors" true (JCodec.pslice J.assessor) <|
  .field "attestations" true (JCodec.pslice J.attestation) <|
  .field "claims" true (JCodec.pslice J.claim) <|
  .field "evidence" true (JCodec.pslice J.declarationEvidence) <|
  .field "targets" true (JCodec.option J.targets) <|
  .field "affirmation" true (JCodec.option J.affirmation) <|
  .field "signature" true (JCodec.option J.jsfSignature) <|
  .nil

/-- cyclonedx.go:576-584 -/
def J.declarations : JCodec Declarations := JCodec.struct J.declarationsFields Declarations.toP Declarations.ofP

/-- The fields of `PriorityApplication` as a nested product. -/
abbrev PriorityApplication.P := String × String × String × Unit
omit [FloatIO] in
/-- Collects the fields of `PriorityApplication`. -/
def PriorityApplication.toP (x : PriorityApplication) : PriorityApplication.P :=
  (x.applicationNumber, x.jurisdiction, x.filingDate, ())
omit [FloatIO] in
/-- Puts the fields of `PriorityApplication` back. -/
def PriorityApplication.ofP (x : PriorityApplication.P) : PriorityApplication :=
  ⟨x.1, x.2.1, x.2.2.1⟩
/-- cyclonedx.go:1802-1806 -/
def J.priorityApplicationFields : JFields PriorityApplication.P :=
  .field "applicationNumber" false JCodec.string <|
  .field "jurisdiction" false JCodec.string <|
  .field "filingDate" false JCodec.string <|
  .nil

/-- cyclonedx.go:1802-1806 -/
def J.priorityApplication : JCodec PriorityApplication := JCodec.struct J.priorityApplicationFields PriorityApplication.toP PriorityApplication.ofP

/-- The fields of `Patent` as a nested product. -/
abbrev Patent.P := String × String × String × String × (Option PriorityApplication) × String × String × String × String × String × String × PatentLegalStatus × (PSlice OrganizationalEntityOrContact) × (PSlice ExternalReference) × Unit
omit [FloatIO] in
/-- Collects the fields of `Patent`. -/
def Patent.toP (x : Patent) : Patent.P :=
  (x.bomRef, x.patentNumber, x.applicationNumber, x.jurisdiction, x.priorityApplication, x.publicationNumber, x.title, x.abstract, x.filingDate, x.grantDate, x.patentExpirationDate, x.patentLegalStatus, x.patentAssignee, x.externalReferences, ())
omit [FloatIO] in
/-- Puts the fields of `Patent` back. -/
def Patent.ofP (x : Patent.P) : Patent :=
  ⟨x.1, x.2.1, x.2.2.1, x.2.2.2.1, x.2.2.2.2.1, x.2.2.2.2.2.1, x.2.2.2.2.2.2.1, x.2.2.2.2.2.2.2.1, x.2.2.2.2.2.2.2.2.1, x.2.2.2.2.2.2.2.2.2.1, x.2.2.2.2.2.2.2.2.2.2.1, x.2.2.2.2.2.2.2.2.2.2.2.1, x.2.2.2.2.2.2.2.2.2.2.2.2.1, x.2.2.2.2.2.2.2.2.2.2.2.2.2.1⟩
/-- cyclonedx.go:1743-1758 -/
def J.patentFields : JFields Patent.P :=
  .field "bom-ref" true JCodec.string <|
  .field "patentNumber" false JCodec.string <|
  .field "applicationNumber" true JCodec.string <|
  .field "jurisdiction" false JCodec.string <|
  .field "priorityApplication" true (JCodec.option J.priorityApplication) <|
  .field "publicationNumber" true JCodec.string <|
  .field "title" true JCodec.string <|
  .field "abstract" true JCodec.string <|
  .field "filingDate" true JCodec.string <|
  .field "grantDate" true JCodec.string <|
  .field "patentExpirationDate" true JCodec.string <|
  .field "patentLegalStatus" false JCodec.string <|
  .field "patentAssignee" true (JCodec.pslice J.organizationalEntityOrContact) <|
  .field "externalReferences" true (JCodec.pslice J.externalReference) <|
  .nil

/-- cyclonedx.go:1743-1758 -/
def J.patent : JCodec Patent := JCodec.struct J.patentFields Patent.toP Patent.ofP

/-- The fields of `PatentFamily` as a nested product. -/
abbrev PatentFamily.P := String × String × (Option PriorityApplication) × (PSlice BOMReference) × (PSlice ExternalReference) × Unit
omit [FloatIO] in
/-- Collects the fields of `PatentFamily`. -/
def PatentFamily.toP (x : PatentFamily) : PatentFamily.P :=
  (x.bomRef, x.familyID, x.priorityApplication, x.members, x.externalReferences, ())
omit [FloatIO] in
/-- Puts the fields of `PatentFamily` back. -/
def PatentFamily.ofP (x : PatentFamily.P) : PatentFamily :=
  ⟨x.1, x.2.1, x.2.2.1, x.2.2.2.1, x.2.2.2.2.1⟩
/-- cyclonedx.go:1761-1767 -/
def J.patentFamilyFields : JFields PatentFamily.P :=
  .field "bom-ref" true JCodec.string <|
  .field "familyId" false JCodec.string <|
  .field "priorityApplication" true (JCodec.option J.priorityApplication) <|
  .field "members" true (JCodec.pslice J.bomReference) <|
  .field "externalReferences" true (JCodec.pslice J.externalReference) <|
  .nil

/-- cyclonedx.go:1761-1767 -/
def J.patentFamily : JCodec PatentFamily := JCodec.struct J.patentFamilyFields PatentFamily.toP PatentFamily.ofP

/-- cyclonedx_json.go:415-450 -/
def J.patentChoice : JCodec PatentChoice where
  enc c :=
    match c.patent, c.patentFamily with
    | some p, _ => J.patent.enc p
    | none, some q => J.patentFamily.enc q
    | none, none => some (.obj [])
  dec j c :=
    match (J.peek "familyId").dec j "" with
    | none => none
    | some s =>
      if s ≠ "" then
        match J.patentFamily.dec j {} with
        | none => none
        | some q => some { c with patentFamily := some q }
      else
        match J.patent.dec j {} with
        | none => none
        | some p => some { c with patent := some p }
  zero := {}
  empty _ := false
  norm c :=
    match c.patent, c.patentFamily with
    | some p, _ => { patent := some (J.patent.norm p) }
    | none, some q => { patentFamily := some (J.patentFamily.norm q) }
    | none, none => { patent := some {} }
  good c :=
    match c.patent, c.patentFamily with
    | some p, _ => J.patent.good p
    | none, some q => q.familyID ≠ "" ∧ J.patentFamily.good q
    | none, none => True

/-- The fields of `StandardRequirement` as a nested product. -/
abbrev StandardRequirement.P := String × String × String × String × (PSlice String) × (PSlice String) × String × (PSlice Property) × (PSlice ExternalReference) × Unit
omit [FloatIO] in
/-- Collects the fields of `StandardRequirement`. -/
def StandardRequirement.toP (x : StandardRequirement) : StandardRequirement.P :=
  (x.bomRef, x.identifier, x.title, x.text, x.descriptions, x.openCRE, x.parent, x.properties, x.externalReferences, ())
omit [FloatIO] in
/-- Puts the fields of `StandardRequirement` back. -/
def StandardRequirement.ofP (x : StandardRequirement.P) : StandardRequirement :=
  ⟨x.1, x.2.1, x.2.2.1, x.2.2.2.1, x.2.2.2.2.1, x.2.2.2.2.2.1, x.2.2.2.2.2.2.1, x.2.2.2.2.2.2.2.1, x.2.2.2.2.2.2.2.2.1⟩
/-- cyclonedx.go:1429-1439 -/
def J.standardRequirementFields : JFields StandardRequirement.P :=
  .field "bom-ref" true JCodec.string <|
  .field "identifier" true JCodec.string <|
  .field "title" true JCodec.string <|
  .field "text" true JCodec.string <|
  .field "descriptions" true (JCodec.pslice JCodec.string) <|
  .field "openCre" true (JCodec.pslice JCodec.string) <|
  .field "parent" true JCodec.string <|
  .field "properties" true (JCodec.pslice J.property) <|
  .field "externalReferences" true (JCodec.pslice J.externalReference) <|
  .nil

/-- cyclonedx.go:1429-1439 -/
def J.standardRequirement : JCodec StandardRequirement := JCodec.struct J.standardRequirementFields StandardRequirement.toP StandardRequirement.ofP

/-- The fields of `StandardLevel` as a nested product. -/
abbrev StandardLevel.P := String × String × String × String × (PSlice String) × Unit
omit [FloatIO] in
/-- Collects the fields of `StandardLevel`. -/
def StandardLevel.toP (x : StandardLevel) : StandardLevel.P :=
  (x.bomRef, x.identifier, x.title, x.description, x.requirements, ())
omit [FloatIO] in
/-- Puts the fields of `StandardLevel` back. -/
def StandardLevel.ofP (x : StandardLevel.P) : StandardLevel :=
  ⟨x.1, x.2.1, x.2.2.1, x.2.2.2.1, x.2.2.2.2.1⟩
/-- cyclonedx.go:1441-1447 -/
def J.standardLevelFields : JFields StandardLevel.P :=
  .field "bom-ref" true JCodec.string <|
  .field "identifier" true JCodec.string <|
  .field "title" true JCodec.string <|
  .field "description" true JCodec.string <|
  .field "requirements" true (JCodec.pslice JCodec.string) <|
  .nil

/-- cyclonedx.go:1441-1447 -/
def J.standardLevel : JCodec StandardLevel := JCodec.struct J.standardLevelFields StandardLevel.toP StandardLevel.ofP

/-- The fields of `StandardDefinition` as a nested product. -/
abbrev StandardDefinition.P := String × String × String × String × String × (PSlice StandardRequirement) × (PSlice StandardLevel) × (PSlice ExternalReference) × (Option JSFSignature) × Unit
omit [FloatIO] in
/-- Collects the fields of `StandardDefinition`. -/
def StandardDefinition.toP (x : StandardDefinition) : StandardDefinition.P :=
  (x.bomRef, x.name, x.version, x.description, x.owner, x.requirements, x.levels, x.externalReferences, x.signature, ())
omit [FloatIO] in
/-- Puts the fields of `StandardDefinition` back. -/
def StandardDefinition.ofP (x : StandardDefinition.P) : StandardDefinition :=
  ⟨x.1, x.2.1, x.2.2.1, x.2.2.2.1, x.2.2.2.2.1, x.2.2.2.2.2.1, x.2.2.2.2.2.2.1, x.2.2.2.2.2.2.2.1, x.2.2.2.2.2.2.2.2.1⟩
/-- cyclonedx.go:1416-1427 -/
def J.standardDefinitionFields : JFields StandardDefinition.P :=
  .field "bom-ref" true JCodec.string <|
  .field "name" true JCodec.string <|
  .field "version" true JCodec.string <|
  .field "description" true JCodec.string <|
  .field "owner" true JCodec.string <|
  .field "requirements" true (JCodec.pslice J.standardRequirement) <|
  .field "levels" true (JCodec.pslice J.standardLevel) <|
  .field "externalReferences" true (JCodec.pslice J.externalReference) <|
  .field "signature" true (JCodec.option J.jsfSignature) <|
  .nil

/-- cyclonedx.go:1416-1427 -/
def J.standardDefinition : JCodec StandardDefinition := JCodec.struct J.standardDefinitionFields StandardDefinition.toP StandardDefinition.ofP

/-- The fields of `Definitions` as a nested product. -/
abbrev Definitions.P := (PSlice StandardDefinition) × (PSlice PatentChoice) × Unit
omit [FloatIO] in
/-- Collects the fields of `Definitions`. -/
def Definitions.toP (x : Definitions) : Definitions.P :=
  (x.standards, x.patents, ())
omit [FloatIO] in
/-- Puts the fields of `Definitions` back. -/
def Definitions.ofP (x : Definitions.P) : Definitions :=
  ⟨x.1, x.2.1⟩
/-- cyclonedx.go:598-601 -/
def J.definitionsFields : JFields Definitions.P :=
  .field "standards" true (JCodec.pslice J.standardDefinition) <|
  .field "patents" true (JCodec.pslice J.patentChoice) <|
  .nil

/-- cyclonedx.go:598-601 -/
def J.definitions : JCodec Definitions := JCodec.struct J.definitionsFields Definitions.toP Definitions.ofP

/-- The fields of `Dependency` as a nested product. -/
abbrev Dependency.P := String × (PSlice String) × (PSlice String) × Unit
omit [FloatIO] in
/-- Collects the fields of `Dependency`. -/
def Dependency.toP (x : Dependency) : Dependency.P :=
  (x.ref, x.dependencies, x.provides, ())
omit [FloatIO] in
/-- Puts the fields of `Dependency` back. -/
def Dependency.ofP (x : Dependency.P) : Dependency :=
  ⟨x.1, x.2.1, x.2.2.1⟩
/-- cyclonedx.go:644-648 -/
def J.dependencyFields : JFields Dependency.P :=
  .field "ref" false JCodec.string <|
  .field "dependsOn" true (JCodec.pslice JCodec.string) <|
  .field "provides" true (JCodec.pslice JCodec.string) <|
  .nil

/-- cyclonedx.go:644-648 -/
def J.dependency : JCodec Dependency := JCodec.struct J.dependencyFields Dependency.toP Dependency.ofP

/-- The fields of `ResourceReferenceChoice` as a nested product. -/
abbrev ResourceReferenceChoice.P := String × (Option ExternalReference) × Unit
omit [FloatIO] in
/-- Collects the fields of `ResourceReferenceChoice`. -/
def ResourceReferenceChoice.toP (x : ResourceReferenceChoice) : ResourceReferenceChoice.P :=
  (x.ref, x.externalReference, ())
omit [FloatIO] in
/-- Puts the fields of `ResourceReferenceChoice` back. -/
def ResourceReferenceChoice.ofP (x : ResourceReferenceChoice.P) : ResourceReferenceChoice :=
  ⟨x.1, x.2.1⟩
/-- cyclonedx.go:1337-1340 -/
def J.resourceReferenceChoiceFields : JFields ResourceReferenceChoice.P :=
  .field "ref" true JCodec.string <|
  .field "externalReference" true (JCodec.option J.externalReference) <|
  .nil

/-- cyclonedx.go:1337-1340 -/
def J.resourceReferenceChoice : JCodec ResourceReferenceChoice := JCodec.struct J.resourceReferenceChoiceFields ResourceReferenceChoice.toP ResourceReferenceChoice.ofP

/-- cyclonedx_json.go:26-62.  `UnmarshalJSON` first tries a `Property`; only if that fails because the
value is a string, or gives the zero `Property`, it tries a string.  By the kind of value: an object is
a property (the zero property counts as the empty string), a string is the value, `null` the empty
string, everything else an error. -/
def J.environmentVariableChoice : JCodec EnvironmentVariableChoice where
  enc ev :=
    match ev.property with
    | some p =>
      if ¬ p.isZero then J.property.enc p
      else if ev.value ≠ "" then some (.str ev.value) else some (.obj [])
    | none => if ev.value ≠ "" then some (.str ev.value) else some (.obj [])
  dec j ev := match j with
    | .str s => some { ev with value := s }
    | .null => some { ev with value := "" }
    | .obj ms =>
      match J.property.dec (.obj ms) {} with
      | none => none
      | some p => if ¬ p.isZero then some { ev with property := some p } else some { ev with value := "" }
    | _ => none
  zero := {}
  empty _ := false
  norm ev :=
    match ev.property with
    | some p => if ¬ p.isZero then { property := some p } else { value := ev.value }
    | none => { value := ev.value }

/-- The fields of `Parameter` as a nested product. -/
abbrev Parameter.P := String × String × String × Unit
omit [FloatIO] in
/-- Collects the fields of `Parameter`. -/
def Parameter.toP (x : Parameter) : Parameter.P :=
  (x.name, x.value, x.dataType, ())
omit [FloatIO] in
/-- Puts the fields of `Parameter` back. -/
def Parameter.ofP (x : Parameter.P) : Parameter :=
  ⟨x.1, x.2.1, x.2.2.1⟩
/-- cyclonedx.go:1231-1235 -/
def J.parameterFields : JFields Parameter.P :=
  .field "name" true JCodec.string <|
  .field "value" true JCodec.string <|
  .field "dataType" true JCodec.string <|
  .nil

/-- cyclonedx.go:1231-1235 -/
def J.parameter : JCodec Parameter := JCodec.struct J.parameterFields Parameter.toP Parameter.ofP

/-- The fields of `TaskInput` as a nested product. -/
abbrev TaskInput.P := (Option ResourceReferenceChoice) × (PSlice Parameter) × (PSlice EnvironmentVariableChoice) × (Option AttachedText) × (Option ResourceReferenceChoice) × (Option ResourceReferenceChoice) × (PSlice Property) × Unit
omit [FloatIO] in
/-- Collects the fields of `TaskInput`. -/
def TaskInput.toP (x : TaskInput) : TaskInput.P :=
  (x.resource, x.parameters, x.environmentVars, x.data, x.source, x.target, x.properties, ())
omit [FloatIO] in
/-- Puts the fields of `TaskInput` back. -/
def TaskInput.ofP (x : TaskInput.P) : TaskInput :=
  ⟨x.1, x.2.1, x.2.2.1, x.2.2.2.1, x.2.2.2.2.1, x.2.2.2.2.2.1, x.2.2.2.2.2.2.1⟩
/-- cyclonedx.go:1482-1490 -/
def J.taskInputFields : JFields TaskInput.P :=
  .field "resource" true (JCodec.option J.resourceReferenceChoice) <|
  .field "parameters" true (JCodec.pslice J.parameter) <|
  .field "environmentVars" true (JCodec.pslice J.environmentVariableChoice) <|
  .field "data" true (JCodec.option J.attachedText) <|
  .field "source" true (JCodec.option J.resourceReferenceChoice) <|
  .field "target" true (JCodec.option J.resourceReferenceChoice) <|
  .field "properties" true (JCodec.pslice J.property) <|
  .nil

/-- cyclonedx.go:1482-1490 -/
def J.taskInput : JCodec TaskInput := JCodec.struct J.taskInputFields TaskInput.toP TaskInput.ofP

/-- The fields of `TaskOutput` as a nested product. -/
abbrev TaskOutput.P := (Option ResourceReferenceChoice) × (PSlice Parameter) × (PSlice EnvironmentVariableChoice) × (Option AttachedText) × TaskOutputType × (Option ResourceReferenceChoice) × (Option ResourceReferenceChoice) × (PSlice Property) × Unit
omit [FloatIO] in
/-- Collects the fields of `TaskOutput`. -/
def TaskOutput.toP (x : TaskOutput) : TaskOutput.P :=
  (x.resource, x.parameters, x.environmentVars, x.data, x.type, x.source, x.target, x.properties, ())
omit [FloatIO] in
/-- Puts the fields of `TaskOutput` back. -/
def TaskOutput.ofP (x : TaskOutput.P) : TaskOutput :=
  ⟨x.1, x.2.1, x.2.2.1, x.2.2.2.1, x.2.2.2.2.1, x.2.2.2.2.2.1, x.2.2.2.2.2.2.1, x.2.2.2.2.2.2.2.1⟩
/-- cyclonedx.go:1492-1501 -/
def J.taskOutputFields : JFields TaskOutput.P :=
  .field "resource" true (JCodec.option J.resourceReferenceChoice) <|
  .field "parameters" true (JCodec.pslice J.parameter) <|
  .field "environmentVars" true (JCodec.pslice J.environmentVariableChoice) <|
  .field "data" true (JCodec.option J.attachedText) <|
  .field "type" true JCodec.string <|
  .field "source" true (JCodec.option J.resourceReferenceChoice) <|
  .field "target" true (JCodec.option J.resourceReferenceChoice) <|
  .field "properties" true (JCodec.pslice J.property) <|
  .nil

/-- cyclonedx.go:1492-1501 -/
def J.taskOutput : JCodec TaskOutput := JCodec.struct J.taskOutputFields TaskOutput.toP TaskOutput.ofP

/-- The fields of `TaskCommand` as a nested product. -/
abbrev TaskCommand.P := String × (PSlice Property) × Unit
omit [FloatIO] in
/-- Collects the fields of `TaskCommand`. -/
def TaskCommand.toP (x : TaskCommand) : TaskCommand.P :=
  (x.executed, x.properties, ())
omit [FloatIO] in
/-- Puts the fields of `TaskCommand` back. -/
def TaskCommand.ofP (x : TaskCommand.P) : TaskCommand :=
  ⟨x.1, x.2.1⟩
/-- cyclonedx.go:1477-1480 -/
def J.taskCommandFields : JFields TaskCommand.P :=
  .field "executed" true JCodec.string <|
  .field "properties" true (JCodec.pslice J.property) <|
  .nil

/-- cyclonedx.go:1477-1480 -/
def J.taskCommand : JCodec TaskCommand := JCodec.struct J.taskCommandFields TaskCommand.toP TaskCommand.ofP

/-- The fields of `TaskStep` as a nested product. -/
abbrev TaskStep.P := String × String × (PSlice TaskCommand) × (PSlice Property) × Unit
omit [FloatIO] in
/-- Collects the fields of `TaskStep`. -/
def TaskStep.toP (x : TaskStep) : TaskStep.P :=
  (x.name, x.description, x.commands, x.properties, ())
omit [FloatIO] in
/-- Puts the fields of `TaskStep` back. -/
def TaskStep.ofP (x : TaskStep.P) : TaskStep :=
  ⟨x.1, x.2.1, x.2.2.1, x.2.2.2.1⟩
/-- cyclonedx.go:1514-1519 -/
def J.taskStepFields : JFields TaskStep.P :=
  .field "name" true JCodec.string <|
  .field "description" true JCodec.string <|
  .field "commands" true (JCodec.pslice J.taskCommand) <|
  .field "properties" true (JCodec.pslice J.property) <|
  .nil

/-- cyclonedx.go:1514-1519 -/
def J.taskStep : JCodec TaskStep := JCodec.struct J.taskStepFields TaskStep.toP TaskStep.ofP

/-- The fields of `Event` as a nested product. -/
abbrev Event.P := String × String × String × (Option AttachedText) × (Option ResourceReferenceChoice) × (Option ResourceReferenceChoice) × (PSlice Property) × Unit
omit [FloatIO] in
/-- Collects the fields of `Event`. -/
def Event.toP (x : Event) : Event.P :=
  (x.uid, x.description, x.timeReceived, x.data, x.source, x.target, x.properties, ())
omit [FloatIO] in
/-- Puts the fields of `Event` back. -/
def Event.ofP (x : Event.P) : Event :=
  ⟨x.1, x.2.1, x.2.2.1, x.2.2.2.1, x.2.2.2.2.1, x.2.2.2.2.2.1, x.2.2.2.2.2.2.1⟩
/-- cyclonedx.go:662-670 -/
def J.eventFields : JFields Event.P :=
  .field "uid" true JCodec.string <|
  .field "description" true JCodec.string <|
  .field "timeReceived" true JCodec.string <|
  .field "data" true (JCodec.option J.attachedText) <|
  .field "source" true (JCodec.option J.resourceReferenceChoice) <|
  .field "target" true (JCodec.option J.resourceReferenceChoice) <|
  .field "properties" true (JCodec.pslice J.property) <|
  .nil

/-- cyclonedx.go:662-670 -/
def J.event : JCodec Event := JCodec.struct J.eventFields Event.toP Event.ofP

/-- The fields of `TaskTriggerCondition` as a nested product. -/
abbrev TaskTriggerCondition.P := String × String × (PSlice Property) × Unit
omit [FloatIO] in
/-- Collects the fields of `TaskTriggerCondition`. -/
def TaskTriggerCondition.toP (x : TaskTriggerCondition) : TaskTriggerCondition.P :=
  (x.description, x.expression, x.properties, ())
omit [FloatIO] in
/-- Puts the fields of `TaskTriggerCondition` back. -/
def TaskTriggerCondition.ofP (x : TaskTriggerCondition.P) : TaskTriggerCondition :=
  ⟨x.1, x.2.1, x.2.2.1⟩
/-- cyclonedx.go:1536-1540 -/
def J.taskTriggerConditionFields : JFields TaskTriggerCondition.P :=
  .field "description" true JCodec.string <|
  .field "expression" true JCodec.string <|
  .field "properties" true (JCodec.pslice J.property) <|
  .nil

/-- cyclonedx.go:1536-1540 -/
def J.taskTriggerCondition : JCodec TaskTriggerCondition := JCodec.struct J.taskTriggerConditionFields TaskTriggerCondition.toP TaskTriggerCondition.ofP

/-- The fields of `TaskTrigger` as a nested product. -/
abbrev TaskTrigger.P := String × String × String × String × (PSlice ResourceReferenceChoice) × TaskTriggerType × (Option Event) × (PSlice TaskTriggerCondition) × String × (PSlice TaskInput) × (PSlice TaskOutput) × (PSlice Property) × Unit
omit [FloatIO] in
/-- Collects the fields of `TaskTrigger`. -/
def TaskTrigger.toP (x : TaskTrigger) : TaskTrigger.P :=
  (x.bomRef, x.uid, x.name, x.description, x.resourceReferences, x.type, x.event, x.conditions, x.timeActivated, x.inputs, x.outputs, x.properties, ())
omit [FloatIO] in
/-- Puts the fields of `TaskTrigger` back. -/
def TaskTrigger.ofP (x : TaskTrigger.P) : TaskTrigger :=
  ⟨x.1, x.2.1, x.2.2.1, x.2.2.2.1, x.2.2.2.2.1, x.2.2.2.2.2.1, x.2.2.2.2.2.2.1, x.2.2.2.2.2.2.2.1, x.2.2.2.2.2.2.2.2.1, x.2.2.2.2.2.2.2.2.2.1, x.2.2.2.2.2.2.2.2.2.2.1, x.2.2.2.2.2.2.2.2.2.2.2.1⟩
/-- cyclonedx.go:1521-1534 -/
def J.taskTriggerFields : JFields TaskTrigger.P :=
  .field "bom-ref" true JCodec.string <|
  .field "uid" true JCodec.string <|
  .field "name" true JCodec.string <|
  .field "description" true JCodec.string <|
  .field "resourceReferences" true (JCodec.pslice J.resourceReferenceChoice) <|
  .field "type" true JCodec.string <|
  .field "event" true (JCodec.option J.event) <|
  .field "conditions" true (JCodec.pslice J.taskTriggerCondition) <|
  .field "timeActivated" true JCodec.string <|
  .field "inputs" true (JCodec.pslice J.taskInput) <|
  .field "outputs" true (JCodec.pslice J.taskOutput) <|
  .field "properties" true (JCodec.pslice J.property) <|
  .nil

/-- cyclonedx.go:1521-1534 -/
def J.taskTrigger : JCodec TaskTrigger := JCodec.struct J.taskTriggerFields TaskTrigger.toP TaskTrigger.ofP

/-- The fields of `Volume` as a nested product. -/
abbrev Volume.P := String × String × VolumeMode × String × String × (Option Bool) × (Option Bool) × (PSlice Property) × Unit
omit [FloatIO] in
/-- Collects the fields of `Volume`. -/
def Volume.toP (x : Volume) : Volume.P :=
  (x.uid, x.name, x.mode, x.path, x.sizeAllocated, x.persistent, x.remote, x.properties, ())
omit [FloatIO] in
/-- Puts the fields of `Volume` back. -/
def Volume.ofP (x : Volume.P) : Volume :=
  ⟨x.1, x.2.1, x.2.2.1, x.2.2.2.1, x.2.2.2.2.1, x.2.2.2.2.2.1, x.2.2.2.2.2.2.1, x.2.2.2.2.2.2.2.1⟩
/-- cyclonedx.go:1616-1625 -/
def J.volumeFields : JFields Volume.P :=
  .field "uid" true JCodec.string <|
  .field "name" true JCodec.string <|
  .field "mode" true JCodec.string <|
  .field "path" true JCodec.string <|
  .field "sizeAllocated" true JCodec.string <|
  .field "persistent" true (JCodec.option JCodec.bool) <|
  .field "remote" true (JCodec.option JCodec.bool) <|
  .field "properties" true (JCodec.pslice J.property) <|
  .nil

/-- cyclonedx.go:1616-1625 -/
def J.volume : JCodec Volume := JCodec.struct J.volumeFields Volume.toP Volume.ofP

/-- The fields of `TaskWorkspace` as a nested product. -/
abbrev TaskWorkspace.P := String × String × String × (PSlice String) × String × (PSlice ResourceReferenceChoice) × TaskWorkspaceAccessMode × String × String × String × (Option Volume) × (PSlice Property) × Unit
omit [FloatIO] in
/-- Collects the fields of `TaskWorkspace`. -/
def TaskWorkspace.toP (x : TaskWorkspace) : TaskWorkspace.P :=
  (x.bomRef, x.uid, x.name, x.aliases, x.description, x.resourceReferences, x.accessMode, x.mountPath, x.managedDataType, x.volumeRequest, x.volume, x.properties, ())
omit [FloatIO] in
/-- Puts the fields of `TaskWorkspace` back. -/
def TaskWorkspace.ofP (x : TaskWorkspace.P) : TaskWorkspace :=
  ⟨x.1, x.2.1, x.2.2.1, x.2.2.2.1, x.2.2.2.2.1, x.2.2.2.2.2.1, x.2.2.2.2.2.2.1, x.2.2.2.2.2.2.2.1, x.2.2.2.2.2.2.2.2.1, x.2.2.2.2.2.2.2.2.2.1, x.2.2.2.2.2.2.2.2.2.2.1, x.2.2.2.2.2.2.2.2.2.2.2.1⟩
/-- cyclonedx.go:1568-1581 -/
def J.taskWorkspaceFields : JFields TaskWorkspace.P :=
  .field "bom-ref" true JCodec.string <|
  .field "uid" true JCodec.string <|
  .field "name" true JCodec.string <|
  .field "aliases" true (JCodec.pslice JCodec.string) <|
  .field "description" true JCodec.string <|
  .field "resourceReferences" true (JCodec.pslice J.resourceReferenceChoice) <|
  .field "accessMode" true JCodec.string <|
  .field "mountPath" true JCodec.string <|
  .field "managedDataType" true JCodec.string <|
  .field "volumeRequest" true JCodec.string <|
  .field "volume" true (JCodec.option J.volume) <|
  .field "properties" true (JCodec.pslice J.property) <|
  .nil

/-- cyclonedx.go:1568-1581 -/
def J.taskWorkspace : JCodec TaskWorkspace := JCodec.struct J.taskWorkspaceFields TaskWorkspace.toP TaskWorkspace.ofP

/-- The fields of `Task` as a nested product. -/
abbrev Task.P := String × String × String × String × (PSlice Property) × (PSlice ResourceReferenceChoice) × (PSlice TaskType) × (Option TaskTrigger) × (PSlice TaskStep) × (PSlice TaskInput) × (PSlice TaskOutput) × String × String × (PSlice TaskWorkspace) × (PSlice Dependency) × Unit
omit [FloatIO] in
/-- Collects the fields of `Task`. -/
def Task.toP (x : Task) : Task.P :=
  (x.bomRef, x.uid, x.name, x.description, x.properties, x.resourceReferences, x.taskTypes, x.trigger, x.steps, x.inputs, x.outputs, x.timeStart, x.timeEnd, x.workspaces, x.runtimeTopology, ())
omit [FloatIO] in
/-- Puts the fields of `Task` back. -/
def Task.ofP (x : Task.P) : Task :=
  ⟨x.1, x.2.1, x.2.2.1, x.2.2.2.1, x.2.2.2.2.1, x.2.2.2.2.2.1, x.2.2.2.2.2.2.1, x.2.2.2.2.2.2.2.1, x.2.2.2.2.2.2.2.2.1, x.2.2.2.2.2.2.2.2.2.1, x.2.2.2.2.2.2.2.2.2.2.1, x.2.2.2.2.2.2.2.2.2.2.2.1, x.2.2.2.2.2.2.2.2.2.2.2.2.1, x.2.2.2.2.2.2.2.2.2.2.2.2.2.1, x.2.2.2.2.2.2.2.2.2.2.2.2.2.2.1⟩
/-- cyclonedx.go:1459-1475 -/
def J.taskFields : JFields Task.P :=
  .field "bom-ref" true JCodec.string <|
  .field "uid" true JCodec.string <|
  .field "name" true JCodec.string <|
  .field "description" true JCodec.string <|
  .field "properties" true (JCodec.pslice J.property) <|
  .field "resourceReferences" true (JCodec.pslice J.resourceReferenceChoice) <|
  .field "taskTypes" true (JCodec.pslice JCodec.string) <|
  .field "trigger" true (JCodec.option J.taskTrigger) <|
  .field "steps" true (JCodec.pslice J.taskStep) <|
  .field "inputs" true (JCodec.pslice J.taskInput) <|
  .field "outputs" true (JCodec.pslice J.taskOutput) <|
  .field "timeStart" true JCodec.string <|
  .field "timeEnd" true JCodec.string <|
  .field "workspaces" true (JCodec.pslice J.taskWorkspace) <|
  .field "runtimeTopology" true (JCodec.pslice J.dependency) <|
  .nil

/-- cyclonedx.go:1459-1475 -/
def J.task : JCodec Task := JCodec.struct J.taskFields Task.toP Task.ofP

/-- The fields of `Workflow` as a nested product. -/
abbrev Workflow.P := String × String × String × String × (PSlice ResourceReferenceChoice) × (PSlice Task) × (PSlice Dependency) × (PSlice TaskType) × (Option TaskTrigger) × (PSlice TaskStep) × (PSlice TaskInput) × (PSlice TaskOutput) × String × String × (PSlice TaskWorkspace) × (PSlice Dependency) × (PSlice Property) × Unit
omit [FloatIO] in
/-- Collects the fields of `Workflow`. -/
def Workflow.toP (x : Workflow) : Workflow.P :=
  (x.bomRef, x.uid, x.name, x.description, x.resourceReferences, x.tasks, x.taskDependencies, x.taskTypes, x.trigger, x.steps, x.inputs, x.outputs, x.timeStart, x.timeEnd, x.workspaces, x.runtimeTopology, x.properties, ())
omit [FloatIO] in
/-- Puts the fields of `Workflow` back. -/
def Workflow.ofP (x : Workflow.P) : Workflow :=
  ⟨x.1, x.2.1, x.2.2.1, x.2.2.2.1, x.2.2.2.2.1, x.2.2.2.2.2.1, x.2.2.2.2.2.2.1, x.2.2.2.2.2.2.2.1, x.2.2.2.2.2.2.2.2.1, x.2.2.2.2.2.2.2.2.2.1, x.2.2.2.2.2.2.2.2.2.2.1, x.2.2.2.2.2.2.2.2.2.2.2.1, x.2.2.2.2.2.2.2.2.2.2.2.2.1, x.2.2.2.2.2.2.2.2.2.2.2.2.2.1, x.2.2.2.2.2.2.2.2.2.2.2.2.2.2.1, x.2.2.2.2.2.2.2.2.2.2.2.2.2.2.2.1, x.2.2.2.2.2.2.2.2.2.2.2.2.2.2.2.2.1⟩
/-- cyclonedx.go:1689-1707 -/
def J.workflowFields : JFields Workflow.P :=
  .field "bom-ref" true JCodec.string <|
  .field "uid" true JCodec.string <|
  .field "name" true JCodec.string <|
  .field "description" true JCodec.string <|
  .field "resourceReferences" true (JCodec.pslice J.resourceReferenceChoice) <|
  .field "tasks" true (JCodec.pslice J.task) <|
  .field "taskDependencies" true (JCodec.pslice J.dependency) <|
  .field "taskTypes" true (JCodec.pslice JCodec.string) <|
  .field "trigger" true (JCodec.option J.taskTrigger) <|
  .field "steps" true (JCodec.pslice J.taskStep) <|
  .field "inputs" true (JCodec.pslice J.taskInput) <|
  .field "outputs" true (JCodec.pslice J.taskOutput) <|
  .field "timeStart" true JCodec.string <|
  .field "timeEnd" true JCodec.string <|
  .field "workspaces" true (JCodec.pslice J.taskWorkspace) <|
  .field "runtimeTopology" true (JCodec.pslice J.dependency) <|
  .field "properties" true (JCodec.pslice J.property) <|
  .nil

/-- cyclonedx.go:1689-1707 -/
def J.workflow : JCodec Workflow := JCodec.struct J.workflowFields Workflow.toP Workflow.ofP

/-- The fields of `Formula` as a nested product. -/
abbrev Formula.P := String × (PSlice Component) × (PSlice Service) × (PSlice Workflow) × (PSlice Property) × Unit
omit [FloatIO] in
/-- Collects the fields of `Formula`. -/
def Formula.toP (x : Formula) : Formula.P :=
  (x.bomRef, x.components, x.services, x.workflows, x.properties, ())
omit [FloatIO] in
/-- Puts the fields of `Formula` back. -/
def Formula.ofP (x : Formula.P) : Formula :=
  ⟨x.1, x.2.1, x.2.2.1, x.2.2.2.1, x.2.2.2.2.1⟩
/-- cyclonedx.go:800-806 -/
def J.formulaFields : JFields Formula.P :=
  .field "bom-ref" true JCodec.string <|
  .field "components" true (JCodec.pslice J.component) <|
  .field "services" true (JCodec.pslice J.service) <|
  .field "workflows" true (JCodec.pslice J.workflow) <|
  .field "properties" true (JCodec.pslice J.property) <|
  .nil

/-- cyclonedx.go:800-806 -/
def J.formula : JCodec Formula := JCodec.struct J.formulaFields Formula.toP Formula.ofP

/-- The fields of `Lifecycle` as a nested product. -/
abbrev Lifecycle.P := String × LifecyclePhase × String × Unit
omit [FloatIO] in
/-- Collects the fields of `Lifecycle`. -/
def Lifecycle.toP (x : Lifecycle) : Lifecycle.P :=
  (x.name, x.phase, x.description, ())
omit [FloatIO] in
/-- Puts the fields of `Lifecycle` back. -/
def Lifecycle.ofP (x : Lifecycle.P) : Lifecycle :=
  ⟨x.1, x.2.1, x.2.2.1⟩
/-- cyclonedx.go:1006-1010 -/
def J.lifecycleFields : JFields Lifecycle.P :=
  .field "name" true JCodec.string <|
  .field "phase" true JCodec.string <|
  .field "description" true JCodec.string <|
  .nil

/-- cyclonedx.go:1006-1010 -/
def J.lifecycle : JCodec Lifecycle := JCodec.struct J.lifecycleFields Lifecycle.toP Lifecycle.ofP

/-- The fields of `Tool` as a nested product. -/
abbrev Tool.P := String × String × String × (PSlice Hash) × (PSlice ExternalReference) × Unit
omit [FloatIO] in
/-- Collects the fields of `Tool`. -/
def Tool.toP (x : Tool) : Tool.P :=
  (x.vendor, x.name, x.version, x.hashes, x.externalReferences, ())
omit [FloatIO] in
/-- Puts the fields of `Tool` back. -/
def Tool.ofP (x : Tool.P) : Tool :=
  ⟨x.1, x.2.1, x.2.2.1, x.2.2.2.1, x.2.2.2.2.1⟩
/-- cyclonedx.go:1594-1600 -/
def J.toolFields : JFields Tool.P :=
  .field "vendor" true JCodec.string <|
  .field "name" false JCodec.string <|
  .field "version" true JCodec.string <|
  .field "hashes" true (JCodec.pslice J.hash) <|
  .field "externalReferences" true (JCodec.pslice J.externalReference) <|
  .nil

/-- cyclonedx.go:1594-1600 -/
def J.tool : JCodec Tool := JCodec.struct J.toolFields Tool.toP Tool.ofP

/-- cyclonedx_json.go:138-141 `toolsChoiceJSON` -/
def J.toolsChoiceFields : JFields (PSlice Component × PSlice Service × Unit) :=
  .field "components" true (JCodec.pslice J.component) <|
  .field "services" true (JCodec.pslice J.service) <|
  .nil

/-- cyclonedx_json.go:138-141 `toolsChoiceJSON` -/
def J.toolsChoiceJSON : JCodec (PSlice Component × PSlice Service) :=
  JCodec.struct J.toolsChoiceFields (fun p => (p.1, p.2, ())) (fun p => (p.1, p.2.1))

/-- cyclonedx_json.go:143-190.  If neither list is set, `MarshalJSON` returns no bytes, which
`json.Marshal` rejects.  `UnmarshalJSON` tries the object form and, if that fails on an array, the list
form; an array inside the object form can only lead to the error of the list form. -/
def J.toolsChoice : JCodec ToolsChoice where
  enc tc :=
    if ¬ tc.tools.isNil ∧ (¬ tc.components.isNil ∨ ¬ tc.services.isNil) then none
    else if ¬ tc.tools.isNil then (JCodec.pslice J.tool).enc tc.tools
    else if ¬ tc.components.isNil ∨ ¬ tc.services.isNil then
      J.toolsChoiceJSON.enc (tc.components, tc.services)
    else none
  dec j tc := match j with
    | .arr js =>
      match (JCodec.pslice J.tool).dec (.arr js) .nil with
      | none => none
      | some ts => some { tools := ts }
    | j =>
      match J.toolsChoiceJSON.dec j (.nil, .nil) with
      | none => none
      | some p =>
        if ¬ p.1.isNil ∨ ¬ p.2.isNil then some { components := p.1, services := p.2 } else some tc
  zero := {}
  empty _ := false
  nullish tc := !tc.tools.isNil && (JCodec.pslice J.tool).nullish tc.tools
  norm tc :=
    if ¬ tc.tools.isNil then { tools := (JCodec.pslice J.tool).norm tc.tools }
    else { components := (JCodec.pslice J.component).norm tc.components,
           services := (JCodec.pslice J.service).norm tc.services }
  good tc := (JCodec.pslice J.tool).good tc.tools ∧ (JCodec.pslice J.component).good tc.components ∧
    (JCodec.pslice J.service).good tc.services

/-- The fields of `DistributionConstraints` as a nested product. -/
abbrev DistributionConstraints.P := TLPClassification × Unit
omit [FloatIO] in
/-- Collects the fields of `DistributionConstraints`. -/
def DistributionConstraints.toP (x : DistributionConstraints) : DistributionConstraints.P :=
  (x.tlp, ())
omit [FloatIO] in
/-- Puts the fields of `DistributionConstraints` back. -/
def DistributionConstraints.ofP (x : DistributionConstraints.P) : DistributionConstraints :=
  ⟨x.1⟩
/-- cyclonedx.go:1809-1811 -/
def J.distributionConstraintsFields : JFields DistributionConstraints.P :=
  .field "tlp" true JCodec.string <|
  .nil

/-- cyclonedx.go:1809-1811 -/
def J.distributionConstraints : JCodec DistributionConstraints := JCodec.struct J.distributionConstraintsFields DistributionConstraints.toP DistributionConstraints.ofP

/-- The fields of `Metadata` as a nested product. -/
abbrev Metadata.P := String × (PSlice Lifecycle) × (Option ToolsChoice) × (PSlice OrganizationalContact) × (Option Component) × (Option OrganizationalEntity) × (Option OrganizationalEntity) × (Option OrganizationalEntity) × (PSlice LicenseChoice) × (PSlice Property) × (Option DistributionConstraints) × Unit
omit [FloatIO] in
/-- Collects the fields of `Metadata`. -/
def Metadata.toP (x : Metadata) : Metadata.P :=
  (x.timestamp, x.lifecycles, x.tools, x.authors, x.component, x.manufacture, x.manufacturer, x.supplier, x.licenses, x.properties, x.distributionConstraints, ())
omit [FloatIO] in
/-- Puts the fields of `Metadata` back. -/
def Metadata.ofP (x : Metadata.P) : Metadata :=
  ⟨x.1, x.2.1, x.2.2.1, x.2.2.2.1, x.2.2.2.2.1, x.2.2.2.2.2.1, x.2.2.2.2.2.2.1, x.2.2.2.2.2.2.2.1, x.2.2.2.2.2.2.2.2.1, x.2.2.2.2.2.2.2.2.2.1, x.2.2.2.2.2.2.2.2.2.2.1⟩
/-- cyclonedx.go:1042-1054 -/
def J.metadataFields : JFields Metadata.P :=
  .field "timestamp" true JCodec.string <|
  .field "lifecycles" true (JCodec.pslice J.lifecycle) <|
  .field "tools" true (JCodec.option J.toolsChoice) <|
  .field "authors" true (JCodec.pslice J.organizationalContact) <|
  .field "component" true (JCodec.option J.component) <|
  .field "manufacture" true (JCodec.option J.organizationalEntity) <|
  .field "manufacturer" true (JCodec.option J.organizationalEntity) <|
  .field "supplier" true (JCodec.option J.organizationalEntity) <|
  .field "licenses" true (JCodec.pslice J.licenseChoice) <|
  .field "properties" true (JCodec.pslice J.property) <|
  .field "distributionConstraints" true (JCodec.option J.distributionConstraints) <|
  .nil

/-- cyclonedx.go:1042-1054 -/
def J.metadata : JCodec Metadata := JCodec.struct J.metadataFields Metadata.toP Metadata.ofP

/-- The fields of `Credits` as a nested product. -/
abbrev Credits.P := (PSlice OrganizationalEntity) × (PSlice OrganizationalContact) × Unit
omit [FloatIO] in
/-- Collects the fields of `Credits`. -/
def Credits.toP (x : Credits) : Credits.P :=
  (x.organizations, x.individuals, ())
omit [FloatIO] in
/-- Puts the fields of `Credits` back. -/
def Credits.ofP (x : Credits.P) : Credits :=
  ⟨x.1, x.2.1⟩
/-- cyclonedx.go:349-352 -/
def J.creditsFields : JFields Credits.P :=
  .field "organizations" true (JCodec.pslice J.organizationalEntity) <|
  .field "individuals" true (JCodec.pslice J.organizationalContact) <|
  .nil

/-- cyclonedx.go:349-352 -/
def J.credits : JCodec Credits := JCodec.struct J.creditsFields Credits.toP Credits.ofP

/-- The fields of `ProofOfConcept` as a nested product. -/
abbrev ProofOfConcept.P := String × String × (PSlice AttachedText) × Unit
omit [FloatIO] in
/-- Collects the fields of `ProofOfConcept`. -/
def ProofOfConcept.toP (x : ProofOfConcept) : ProofOfConcept.P :=
  (x.reproductionSteps, x.environment, x.supportingMaterial, ())
omit [FloatIO] in
/-- Puts the fields of `ProofOfConcept` back. -/
def ProofOfConcept.ofP (x : ProofOfConcept.P) : ProofOfConcept :=
  ⟨x.1, x.2.1, x.2.2.1⟩
/-- cyclonedx.go:1271-1275 -/
def J.proofOfConceptFields : JFields ProofOfConcept.P :=
  .field "reproductionSteps" true JCodec.string <|
  .field "environment" true JCodec.string <|
  .field "supportingMaterial" true (JCodec.pslice J.attachedText) <|
  .nil

/-- cyclonedx.go:1271-1275 -/
def J.proofOfConcept : JCodec ProofOfConcept := JCodec.struct J.proofOfConceptFields ProofOfConcept.toP ProofOfConcept.ofP

/-- The fields of `VulnerabilityAnalysis` as a nested product. -/
abbrev VulnerabilityAnalysis.P := ImpactAnalysisState × ImpactAnalysisJustification × (PSlice ImpactAnalysisResponse) × String × String × String × Unit
omit [FloatIO] in
/-- Collects the fields of `VulnerabilityAnalysis`. -/
def VulnerabilityAnalysis.toP (x : VulnerabilityAnalysis) : VulnerabilityAnalysis.P :=
  (x.state, x.justification, x.response, x.detail, x.firstIssued, x.lastUpdated, ())
omit [FloatIO] in
/-- Puts the fields of `VulnerabilityAnalysis` back. -/
def VulnerabilityAnalysis.ofP (x : VulnerabilityAnalysis.P) : VulnerabilityAnalysis :=
  ⟨x.1, x.2.1, x.2.2.1, x.2.2.2.1, x.2.2.2.2.1, x.2.2.2.2.2.1⟩
/-- cyclonedx.go:1658-1665 -/
def J.vulnerabilityAnalysisFields : JFields VulnerabilityAnalysis.P :=
  .field "state" true JCodec.string <|
  .field "justification" true JCodec.string <|
  .field "response" true (JCodec.pslice JCodec.string) <|
  .field "detail" true JCodec.string <|
  .field "firstIssued" true JCodec.string <|
  .field "lastUpdated" true JCodec.string <|
  .nil

/-- cyclonedx.go:1658-1665 -/
def J.vulnerabilityAnalysis : JCodec VulnerabilityAnalysis := JCodec.struct J.vulnerabilityAnalysisFields VulnerabilityAnalysis.toP VulnerabilityAnalysis.ofP

/-- The fields of `VulnerabilityRating` as a nested product. -/
abbrev VulnerabilityRating.P := (Option Source) × (Option F64) × Severity × ScoringMethod × String × String × Unit
omit [FloatIO] in
/-- Collects the fields of `VulnerabilityRating`. -/
def VulnerabilityRating.toP (x : VulnerabilityRating) : VulnerabilityRating.P :=
  (x.source, x.score, x.severity, x.method, x.vector, x.justification, ())
omit [FloatIO] in
/-- Puts the fields of `VulnerabilityRating` back. -/
def VulnerabilityRating.ofP (x : VulnerabilityRating.P) : VulnerabilityRating :=
  ⟨x.1, x.2.1, x.2.2.1, x.2.2.2.1, x.2.2.2.2.1, x.2.2.2.2.2.1⟩
/-- cyclonedx.go:1667-1674 -/
def J.vulnerabilityRatingFields : JFields VulnerabilityRating.P :=
  .field "source" true (JCodec.option J.source) <|
  .field "score" true (JCodec.option JCodec.f64) <|
  .field "severity" true JCodec.string <|
  .field "method" true JCodec.string <|
  .field "vector" true JCodec.string <|
  .field "justification" true JCodec.string <|
  .nil

/-- cyclonedx.go:1667-1674 -/
def J.vulnerabilityRating : JCodec VulnerabilityRating := JCodec.struct J.vulnerabilityRatingFields VulnerabilityRating.toP VulnerabilityRating.ofP

/-- The fields of `VulnerabilityReference` as a nested product. -/
abbrev VulnerabilityReference.P := String × (Option Source) × Unit
omit [FloatIO] in
/-- Collects the fields of `VulnerabilityReference`. -/
def VulnerabilityReference.toP (x : VulnerabilityReference) : VulnerabilityReference.P :=
  (x.id, x.source, ())
omit [FloatIO] in
/-- Puts the fields of `VulnerabilityReference` back. -/
def VulnerabilityReference.ofP (x : VulnerabilityReference.P) : VulnerabilityReference :=
  ⟨x.1, x.2.1⟩
/-- cyclonedx.go:1676-1679 -/
def J.vulnerabilityReferenceFields : JFields VulnerabilityReference.P :=
  .field "id" true JCodec.string <|
  .field "source" true (JCodec.option J.source) <|
  .nil

/-- cyclonedx.go:1676-1679 -/
def J.vulnerabilityReference : JCodec VulnerabilityReference := JCodec.struct J.vulnerabilityReferenceFields VulnerabilityReference.toP VulnerabilityReference.ofP

/-- The fields of `Vulnerability` as a nested product. -/
abbrev Vulnerability.P := String × String × (Option Source) × (PSlice VulnerabilityReference) × (PSlice VulnerabilityRating) × (PSlice Int) × String × String × String × String × (Option ProofOfConcept) × (PSlice Advisory) × String × String × String × String × (Option Credits) × (Option ToolsChoice) × (Option VulnerabilityAnalysis) × (PSlice Affects) × (PSlice Property) × Unit
omit [FloatIO] in
/-- Collects the fields of `Vulnerability`. -/
def Vulnerability.toP (x : Vulnerability) : Vulnerability.P :=
  (x.bomRef, x.id, x.source, x.references, x.ratings, x.cwes, x.description, x.detail, x.recommendation, x.workaround, x.proofOfConcept, x.advisories, x.created, x.published, x.updated, x.rejected, x.credits, x.tools, x.analysis, x.affects, x.properties, ())
omit [FloatIO] in
/-- Puts the fields of `Vulnerability` back. -/
def Vulnerability.ofP (x : Vulnerability.P) : Vulnerability :=
  ⟨x.1, x.2.1, x.2.2.1, x.2.2.2.1, x.2.2.2.2.1, x.2.2.2.2.2.1, x.2.2.2.2.2.2.1, x.2.2.2.2.2.2.2.1, x.2.2.2.2.2.2.2.2.1, x.2.2.2.2.2.2.2.2.2.1, x.2.2.2.2.2.2.2.2.2.2.1, x.2.2.2.2.2.2.2.2.2.2.2.1, x.2.2.2.2.2.2.2.2.2.2.2.2.1, x.2.2.2.2.2.2.2.2.2.2.2.2.2.1, x.2.2.2.2.2.2.2.2.2.2.2.2.2.2.1, x.2.2.2.2.2.2.2.2.2.2.2.2.2.2.2.1, x.2.2.2.2.2.2.2.2.2.2.2.2.2.2.2.2.1, x.2.2.2.2.2.2.2.2.2.2.2.2.2.2.2.2.2.1, x.2.2.2.2.2.2.2.2.2.2.2.2.2.2.2.2.2.2.1, x.2.2.2.2.2.2.2.2.2.2.2.2.2.2.2.2.2.2.2.1, x.2.2.2.2.2.2.2.2.2.2.2.2.2.2.2.2.2.2.2.2.1⟩
/-- cyclonedx.go:1634-1656 -/
def J.vulnerabilityFields : JFields Vulnerability.P :=
  .field "bom-ref" true JCodec.string <|
  .field "id" false JCodec.string <|
  .field "source" true (JCodec.option J.source) <|
  .field "references" true (JCodec.pslice J.vulnerabilityReference) <|
  .field "ratings" true (JCodec.pslice J.vulnerabilityRating) <|
  .field "cwes" true (JCodec.pslice JCodec.int) <|
  .field "description" true JCodec.string <|
  .field "detail" true JCodec.string <|
  .field "recommendation" true JCodec.string <|
  .field "workaround" true JCodec.string <|
  .field "proofOfConcept" true (JCodec.option J.proofOfConcept) <|
  .field "advisories" true (JCodec.pslice J.advisory) <|
  .field "created" true JCodec.string <|
  .field "published" true JCodec.string <|
  .field "updated" true JCodec.string <|
  .field "rejected" true JCodec.string <|
  .field "credits" true (JCodec.option J.credits) <|
  .field "tools" true (JCodec.option J.toolsChoice) <|
  .field "analysis" true (JCodec.option J.vulnerabilityAnalysis) <|
  .field "affects" true (JCodec.pslice J.affects) <|
  .field "properties" true (JCodec.pslice J.property) <|
  .nil

/-- cyclonedx.go:1634-1656 -/
def J.vulnerability : JCodec Vulnerability := JCodec.struct J.vulnerabilityFields Vulnerability.toP Vulnerability.ofP

/-- The fields of `Citation` as a nested product. -/
abbrev Citation.P := String × (PSlice String) × (PSlice String) × String × (Option BOMReference) × String × String × (Option JSFSignature) × Unit
omit [FloatIO] in
/-- Collects the fields of `Citation`. -/
def Citation.toP (x : Citation) : Citation.P :=
  (x.bomRef, x.pointers, x.expressions, x.timestamp, x.attributedTo, x.process, x.note, x.signature, ())
omit [FloatIO] in
/-- Puts the fields of `Citation` back. -/
def Citation.ofP (x : Citation.P) : Citation :=
  ⟨x.1, x.2.1, x.2.2.1, x.2.2.2.1, x.2.2.2.2.1, x.2.2.2.2.2.1, x.2.2.2.2.2.2.1, x.2.2.2.2.2.2.2.1⟩
/-- cyclonedx.go:1712-1721 -/
def J.citationFields : JFields Citation.P :=
  .field "bom-ref" true JCodec.string <|
  .field "pointers" true (JCodec.pslice JCodec.string) <|
  .field "expressions" true (JCodec.pslice JCodec.string) <|
  .field "timestamp" true JCodec.string <|
  .field "attributedTo" true (JCodec.option J.bomReference) <|
  .field "process" true JCodec.string <|
  .field "note" true JCodec.string <|
  .field "signature" true (JCodec.option J.jsfSignature) <|
  .nil

/-- cyclonedx.go:1712-1721 -/
def J.citation : JCodec Citation := JCodec.struct J.citationFields Citation.toP Citation.ofP

/-- The fields of `BOM` as a nested product. -/
abbrev BOM.P := XMLName × String × String × String × Int × String × Int × (Option Metadata) × (PSlice Component) × (PSlice Service) × (PSlice ExternalReference) × (PSlice Dependency) × (PSlice Composition) × (PSlice Property) × (PSlice Vulnerability) × (PSlice Annotation) × (PSlice Formula) × (Option Declarations) × (Option Definitions) × (PSlice Citation) × (Option JSFSignature) × Unit
omit [FloatIO] in
/-- Collects the fields of `BOM`. -/
def BOM.toP (x : BOM) : BOM.P :=
  (x.xmlName, x.xmlns, x.jsonSchema, x.bomFormat, x.specVersion, x.serialNumber, x.version, x.metadata, x.components, x.services, x.externalReferences, x.dependencies, x.compositions, x.properties, x.vulnerabilities, x.annotations, x.formulation, x.declarations, x.definitions, x.citations, x.signature, ())
omit [FloatIO] in
/-- Puts the fields of `BOM` back. -/
def BOM.ofP (x : BOM.P) : BOM :=
  ⟨x.1, x.2.1, x.2.2.1, x.2.2.2.1, x.2.2.2.2.1, x.2.2.2.2.2.1, x.2.2.2.2.2.2.1, x.2.2.2.2.2.2.2.1, x.2.2.2.2.2.2.2.2.1, x.2.2.2.2.2.2.2.2.2.1, x.2.2.2.2.2.2.2.2.2.2.1, x.2.2.2.2.2.2.2.2.2.2.2.1, x.2.2.2.2.2.2.2.2.2.2.2.2.1, x.2.2.2.2.2.2.2.2.2.2.2.2.2.1, x.2.2.2.2.2.2.2.2.2.2.2.2.2.2.1, x.2.2.2.2.2.2.2.2.2.2.2.2.2.2.2.1, x.2.2.2.2.2.2.2.2.2.2.2.2.2.2.2.2.1, x.2.2.2.2.2.2.2.2.2.2.2.2.2.2.2.2.2.1, x.2.2.2.2.2.2.2.2.2.2.2.2.2.2.2.2.2.2.1, x.2.2.2.2.2.2.2.2.2.2.2.2.2.2.2.2.2.2.2.1, x.2.2.2.2.2.2.2.2.2.2.2.2.2.2.2.2.2.2.2.2.1⟩
/-- cyclonedx.go:105-131, with the codec `sv` for the version of the specification. -/
def J.bomFields (sv : JCodec Int) : JFields BOM.P :=
  .skip {} <|
  .skip "" <|
  .field "$schema" true JCodec.string <|
  .field "bomFormat" false JCodec.string <|
  .field "specVersion" false sv <|
  .field "serialNumber" true JCodec.string <|
  .field "version" false JCodec.int <|
  .field "metadata" true (JCodec.option J.metadata) <|
  .field "components" true (JCodec.pslice J.component) <|
  .field "services" true (JCodec.pslice J.service) <|
  .field "externalReferences" true (JCodec.pslice J.externalReference) <|
  .field "dependencies" true (JCodec.pslice J.dependency) <|
  .field "compositions" true (JCodec.pslice J.composition) <|
  .field "properties" true (JCodec.pslice J.property) <|
  .field "vulnerabilities" true (JCodec.pslice J.vulnerability) <|
  .field "annotations" true (JCodec.pslice J.annotation) <|
  .field "formulation" true (JCodec.pslice J.formula) <|
  .field "declarations" true (JCodec.option J.declarations) <|
  .field "definitions" true (JCodec.option J.definitions) <|
  .field "citations" true (JCodec.pslice J.citation) <|
  .field "signature" true (JCodec.option J.jsfSignature) <|
  .nil

/-- cyclonedx.go:105-131, with the codec `sv` for the version of the specification. -/
def J.bomWith (sv : JCodec Int) : JCodec BOM := JCodec.struct (J.bomFields sv) BOM.toP BOM.ofP

/-- cyclonedx.go:105-131 -/
def J.bom : JCodec BOM := J.bomWith J.specVersion

end Verif
