import Verif.Xml.CustomLaws
import Verif.Json.StructLaws

/-!
# Every XML codec of the library is lawful

GENERATED by `tools/gen_xml.py`; do not edit by hand.
-/

namespace Verif

open Xml (sanitize trim textOf textKids)

variable [XFloatIO]

set_option linter.unusedSectionVars false
set_option linter.unusedSimpArgs false
set_option linter.unusedVariables false
set_option synthInstance.maxSize 4000
set_option synthInstance.maxHeartbeats 400000


instance : XFieldsLawful X.bomReferenceFields := by unfold X.bomReferenceFields; infer_instance
instance : XLawful X.bomReference :=
  lawful_empty (fresh_lawful (xstruct_lawful X.bomReferenceFields _ _ (fun _ => rfl) (by simp [X.bomReferenceFields, XFields.attrNames])
    (by simp [X.bomReferenceFields, XFields.elemNames]) (by simp [X.bomReferenceFields, XFields.texts]))) _
instance : XNamed X.bomReference := ⟨fun _ => rfl⟩
instance : XLawful X.dependencyRef :=
  xstruct_lawful X.bomReferenceFields _ _ (fun _ => rfl) (by simp [X.bomReferenceFields, XFields.attrNames])
    (by simp [X.bomReferenceFields, XFields.elemNames]) (by simp [X.bomReferenceFields, XFields.texts])
instance : XNamed X.dependencyRef := ⟨fun _ => rfl⟩

instance : XFieldsLawful X.advisoryFields := by unfold X.advisoryFields; infer_instance
instance : XLawful X.advisory :=
  xstruct_lawful X.advisoryFields _ _ (fun _ => rfl)
    List.nodup_nil
    (show (["title", "url"] : List String).Nodup by decide +kernel) (show (0 : Nat) ≤ 1 by decide)
instance : XNamed X.advisory := xstruct_named X.advisoryFields _ _

instance : XFieldsLawful X.affectedVersionsFields := by unfold X.affectedVersionsFields; infer_instance
instance : XLawful X.affectedVersions :=
  xstruct_lawful X.affectedVersionsFields _ _ (fun _ => rfl)
    List.nodup_nil
    (show (["version", "range", "status"] : List String).Nodup by decide +kernel) (show (0 : Nat) ≤ 1 by decide)
instance : XNamed X.affectedVersions := xstruct_named X.affectedVersionsFields _ _

instance : XFieldsLawful X.affectsFields := by unfold X.affectsFields; infer_instance
instance : XLawful X.affects :=
  xstruct_lawful X.affectsFields _ _ (fun _ => rfl)
    List.nodup_nil
    (show (["ref", "versions"] : List String).Nodup by decide +kernel) (show (0 : Nat) ≤ 1 by decide)
instance : XNamed X.affects := xstruct_named X.affectsFields _ _

instance : XFieldsLawful X.attachedTextFields := by unfold X.attachedTextFields; infer_instance
instance : XLawful X.attachedText :=
  xstruct_lawful X.attachedTextFields _ _ (fun _ => rfl)
    (show (["content-type", "encoding"] : List String).Nodup by decide +kernel)
    List.nodup_nil (show (1 : Nat) ≤ 1 by decide)
instance : XNamed X.attachedText := xstruct_named X.attachedTextFields _ _

instance : XFieldsLawful X.propertyFields := by unfold X.propertyFields; infer_instance
instance : XLawful X.property :=
  xstruct_lawful X.propertyFields _ _ (fun _ => rfl)
    (show (["name"] : List String).Nodup by decide +kernel)
    List.nodup_nil (show (1 : Nat) ≤ 1 by decide)
instance : XNamed X.property := xstruct_named X.propertyFields _ _

instance : XFieldsLawful X.componentDataContentsFields := by unfold X.componentDataContentsFields; infer_instance
instance : XLawful X.componentDataContents :=
  xstruct_lawful X.componentDataContentsFields _ _ (fun _ => rfl)
    List.nodup_nil
    (show (["attachment", "url", "properties"] : List String).Nodup by decide +kernel) (show (0 : Nat) ≤ 1 by decide)
instance : XNamed X.componentDataContents := xstruct_named X.componentDataContentsFields _ _

instance : XFieldsLawful X.componentDataGraphicFields := by unfold X.componentDataGraphicFields; infer_instance
instance : XLawful X.componentDataGraphic :=
  xstruct_lawful X.componentDataGraphicFields _ _ (fun _ => rfl)
    List.nodup_nil
    (show (["name", "image"] : List String).Nodup by decide +kernel) (show (0 : Nat) ≤ 1 by decide)
instance : XNamed X.componentDataGraphic := xstruct_named X.componentDataGraphicFields _ _

instance : XFieldsLawful X.componentDataGraphicsFields := by unfold X.componentDataGraphicsFields; infer_instance
instance : XLawful X.componentDataGraphics :=
  xstruct_lawful X.componentDataGraphicsFields _ _ (fun _ => rfl)
    List.nodup_nil
    (show (["description", "collection"] : List String).Nodup by decide +kernel) (show (0 : Nat) ≤ 1 by decide)
instance : XNamed X.componentDataGraphics := xstruct_named X.componentDataGraphicsFields _ _

instance : XFieldsLawful X.organizationalContactFields := by unfold X.organizationalContactFields; infer_instance
instance : XLawful X.organizationalContact :=
  xstruct_lawful X.organizationalContactFields _ _ (fun _ => rfl)
    (show (["bom-ref"] : List String).Nodup by decide +kernel)
    (show (["name", "email", "phone"] : List String).Nodup by decide +kernel) (show (0 : Nat) ≤ 1 by decide)
instance : XNamed X.organizationalContact := xstruct_named X.organizationalContactFields _ _

instance : XFieldsLawful X.postalAddressFields := by unfold X.postalAddressFields; infer_instance
instance : XLawful X.postalAddress :=
  xstruct_lawful X.postalAddressFields _ _ (fun _ => rfl)
    (show (["bom-ref"] : List String).Nodup by decide +kernel)
    (show (["country", "region", "locality", "postOfficeBoxNumber", "postalCode", "streetAddress"] : List String).Nodup by decide +kernel) (show (0 : Nat) ≤ 1 by decide)
instance : XNamed X.postalAddress := xstruct_named X.postalAddressFields _ _

instance : XFieldsLawful X.organizationalEntityFields := by unfold X.organizationalEntityFields; infer_instance
instance : XLawful X.organizationalEntity :=
  xstruct_lawful X.organizationalEntityFields _ _ (fun _ => rfl)
    (show (["bom-ref"] : List String).Nodup by decide +kernel)
    (show (["name", "address", "url", "contact"] : List String).Nodup by decide +kernel) (show (0 : Nat) ≤ 1 by decide)
instance : XNamed X.organizationalEntity := xstruct_named X.organizationalEntityFields _ _

instance : XFieldsLawful X.componentDataGovernanceResponsiblePartyFields := by unfold X.componentDataGovernanceResponsiblePartyFields; infer_instance
instance : XLawful X.componentDataGovernanceResponsibleParty :=
  xstruct_lawful X.componentDataGovernanceResponsiblePartyFields _ _ (fun _ => rfl)
    List.nodup_nil
    (show (["organization", "contact"] : List String).Nodup by decide +kernel) (show (0 : Nat) ≤ 1 by decide)
instance : XNamed X.componentDataGovernanceResponsibleParty := xstruct_named X.componentDataGovernanceResponsiblePartyFields _ _

instance : XFieldsLawful X.dataGovernanceFields := by unfold X.dataGovernanceFields; infer_instance
instance : XLawful X.dataGovernance :=
  xstruct_lawful X.dataGovernanceFields _ _ (fun _ => rfl)
    List.nodup_nil
    (show (["custodians", "stewards", "owners"] : List String).Nodup by decide +kernel) (show (0 : Nat) ≤ 1 by decide)
instance : XNamed X.dataGovernance := xstruct_named X.dataGovernanceFields _ _

instance : XFieldsLawful X.componentDataFields := by unfold X.componentDataFields; infer_instance
instance : XLawful X.componentData :=
  xstruct_lawful X.componentDataFields _ _ (fun _ => rfl)
    (show (["bom-ref"] : List String).Nodup by decide +kernel)
    (show (["type", "name", "contents", "classification", "sensitiveData", "graphics", "description", "governance"] : List String).Nodup by decide +kernel) (show (0 : Nat) ≤ 1 by decide)
instance : XNamed X.componentData := xstruct_named X.componentDataFields _ _

instance : XFieldsLawful X.hashFields := by unfold X.hashFields; infer_instance
instance : XLawful X.hash :=
  xstruct_lawful X.hashFields _ _ (fun _ => rfl)
    (show (["alg"] : List String).Nodup by decide +kernel)
    List.nodup_nil (show (1 : Nat) ≤ 1 by decide)
instance : XNamed X.hash := xstruct_named X.hashFields _ _

instance : XFieldsLawful X.relatedCryptographicAssetFields := by unfold X.relatedCryptographicAssetFields; infer_instance
instance : XLawful X.relatedCryptographicAsset :=
  xstruct_lawful X.relatedCryptographicAssetFields _ _ (fun _ => rfl)
    List.nodup_nil
    (show (["type", "ref"] : List String).Nodup by decide +kernel) (show (0 : Nat) ≤ 1 by decide)
instance : XNamed X.relatedCryptographicAsset := xstruct_named X.relatedCryptographicAssetFields _ _

instance : XLawful X.certificateState where
  round n cs x g h := by
    obtain ⟨p, c⟩ := cs
    cases p with
    | some p =>
      cases c with
      | some c => simp [X.certificateState] at h
      | none =>
        obtain ⟨state, reason⟩ := p
        have hs : (state = "") = (sanitize state = "") := by rw [sanitize_eq_empty]
        by_cases hr : reason = "" <;> by_cases he : state = "" <;>
        · simp [X.certificateState, X.predefinedCertificateState, XCodec.struct, XFields.encKids, XFields.encAttrs,
            XField.plain, XCodec.simple, XText.string, PredefinedCertificateState.toP, hr, he] at h
          subst h
          simp [X.certificateState, X.certificateStateRaw, XFields.dec, XFields.decAttrs, XFields.zero, XFields.setKid,
            XFields.setText, XField.plain, XCodec.simple, XText.string, XField.decAll, Xml.attrs, Xml.kids, Xml.isElem, hr, he,
            sanitize_eq_empty, textKids, textOf]
    | none =>
      cases c with
      | none => simp [X.certificateState] at h
      | some c =>
        obtain ⟨name, description, reason⟩ := c
        by_cases hd : description = "" <;> by_cases hr : reason = "" <;>
        · simp [X.certificateState, X.customCertificateState, XCodec.struct, XFields.encKids, XFields.encAttrs,
            XField.plain, XCodec.simple, XText.string, CustomCertificateState.toP, hr, hd] at h
          subst h
          simp [X.certificateState, X.certificateStateRaw, XFields.dec, XFields.decAttrs, XFields.zero, XFields.setKid,
            XFields.setText, XField.plain, XCodec.simple, XText.string, XField.decAll, Xml.attrs, Xml.kids, Xml.isElem, hr, hd,
            sanitize_eq_empty]
  named n cs x h := by
    obtain ⟨_ | p, _ | c⟩ := cs <;>
    simp only [X.certificateState, X.predefinedCertificateState, X.customCertificateState, XCodec.struct, reduceCtorEq,
      Option.map_eq_some_iff, Option.some.injEq] at h <;>
    · obtain ⟨ks, -, rfl⟩ := h
      simp [Xml.isElem, X.certificateState]
  writes n cs o h := by
    obtain ⟨_ | p, _ | c⟩ := cs <;>
    simp only [X.certificateState, X.predefinedCertificateState, X.customCertificateState, XCodec.struct, reduceCtorEq,
      Option.map_eq_some_iff, Option.some.injEq] at h <;>
    first
    | (subst h; rfl)
    | (obtain ⟨ks, -, rfl⟩ := h; rfl)
instance : XNamed X.certificateState := ⟨fun _ => rfl⟩

instance : XLawful X.certificateExtension where
  round n ce x g h := by
    obtain ⟨p, c⟩ := ce
    cases p with
    | some p =>
      cases c with
      | some c => simp [X.certificateExtension] at h
      | none =>
        obtain ⟨name, value⟩ := p
        by_cases hr : value = "" <;> by_cases he : name = "" <;>
        · simp [X.certificateExtension, X.commonCertificateExtension, XCodec.struct, XFields.encKids, XFields.encAttrs,
            XField.plain, XCodec.simple, XText.string, CommonCertificateExtension.toP, hr, he] at h
          subst h
          simp [X.certificateExtension, X.certificateExtensionRaw, XFields.dec, XFields.decAttrs, XFields.zero, XFields.setKid,
            XFields.setText, XField.plain, XCodec.simple, XText.string, XField.decAll, Xml.attrs, Xml.kids, Xml.isElem, hr, he,
            sanitize_eq_empty, textKids, textOf]
    | none =>
      cases c with
      | none => simp [X.certificateExtension] at h
      | some c =>
        obtain ⟨name, value⟩ := c
        by_cases hr : value = "" <;>
        · simp [X.certificateExtension, X.customCertificateExtension, XCodec.struct, XFields.encKids, XFields.encAttrs,
            XField.plain, XCodec.simple, XText.string, CustomCertificateExtension.toP, hr] at h
          subst h
          simp [X.certificateExtension, X.certificateExtensionRaw, XFields.dec, XFields.decAttrs, XFields.zero, XFields.setKid,
            XFields.setText, XField.plain, XCodec.simple, XText.string, XField.decAll, Xml.attrs, Xml.kids, Xml.isElem, hr,
            sanitize_eq_empty]
  named n ce x h := by
    obtain ⟨_ | p, _ | c⟩ := ce <;>
    simp only [X.certificateExtension, X.commonCertificateExtension, X.customCertificateExtension, XCodec.struct,
      reduceCtorEq, Option.map_eq_some_iff, Option.some.injEq] at h <;>
    · obtain ⟨ks, -, rfl⟩ := h
      simp [Xml.isElem, X.certificateExtension]
  writes n ce o h := by
    obtain ⟨_ | p, _ | c⟩ := ce <;>
    simp only [X.certificateExtension, X.commonCertificateExtension, X.customCertificateExtension, XCodec.struct,
      reduceCtorEq, Option.map_eq_some_iff, Option.some.injEq] at h <;>
    first
    | (subst h; rfl)
    | (obtain ⟨ks, -, rfl⟩ := h; rfl)
instance : XNamed X.certificateExtension := ⟨fun _ => rfl⟩

instance : XFieldsLawful X.certificatePropertiesFields := by unfold X.certificatePropertiesFields; infer_instance
instance : XLawful X.certificateProperties :=
  xstruct_lawful X.certificatePropertiesFields _ _ (fun _ => rfl)
    List.nodup_nil
    (show (["serialNumber", "subjectName", "issuerName", "notValidBefore", "notValidAfter", "signatureAlgorithmRef", "subjectPublicKeyRef", "certificateFormat", "certificateExtension", "certificateFileExtension", "fingerprint", "certificateState", "certificateExtensions", "relatedCryptographicAssets", "creationDate", "activationDate", "deactivationDate", "revocationDate", "destructionDate"] : List String).Nodup by decide +kernel) (show (0 : Nat) ≤ 1 by decide)
instance : XNamed X.certificateProperties := xstruct_named X.certificatePropertiesFields _ _

instance : XFieldsLawful X.cryptoAlgorithmPropertiesFields := by unfold X.cryptoAlgorithmPropertiesFields; infer_instance
instance : XLawful X.cryptoAlgorithmProperties :=
  xstruct_lawful X.cryptoAlgorithmPropertiesFields _ _ (fun _ => rfl)
    List.nodup_nil
    (show (["primitive", "parameterSetIdentifier", "algorithmFamily", "curve", "ellipticCurve", "executionEnvironment", "implementationPlatform", "certificationLevel", "mode", "padding", "cryptoFunctions", "classicalSecurityLevel", "nistQuantumSecurityLevel"] : List String).Nodup by decide +kernel) (show (0 : Nat) ≤ 1 by decide)
instance : XNamed X.cryptoAlgorithmProperties := xstruct_named X.cryptoAlgorithmPropertiesFields _ _

instance : XFieldsLawful X.cipherSuiteFields := by unfold X.cipherSuiteFields; infer_instance
instance : XLawful X.cipherSuite :=
  xstruct_lawful X.cipherSuiteFields _ _ (fun _ => rfl)
    List.nodup_nil
    (show (["name", "algorithms", "identifiers", "tlsGroups", "tlsSignatureSchemes"] : List String).Nodup by decide +kernel) (show (0 : Nat) ≤ 1 by decide)
instance : XNamed X.cipherSuite := xstruct_named X.cipherSuiteFields _ _

instance : XFieldsLawful X.ikev2AuthFields := by unfold X.ikev2AuthFields; infer_instance
instance : XLawful X.ikev2Auth :=
  xikev2_lawful X.ikev2AuthFields _ _ _ (fun _ => rfl) List.nodup_nil (show (["name", "algorithm"] : List String).Nodup by decide +kernel) rfl rfl
instance : XNamed X.ikev2Auth := xikev2_named _ _ _ _

instance : XFieldsLawful X.ikev2EncFields := by unfold X.ikev2EncFields; infer_instance
instance : XLawful X.ikev2Enc :=
  xikev2_lawful X.ikev2EncFields _ _ _ (fun _ => rfl) List.nodup_nil (show (["name", "keyLength", "algorithm"] : List String).Nodup by decide +kernel) rfl rfl
instance : XNamed X.ikev2Enc := xikev2_named _ _ _ _

instance : XFieldsLawful X.ikev2IntegFields := by unfold X.ikev2IntegFields; infer_instance
instance : XLawful X.ikev2Integ :=
  xikev2_lawful X.ikev2IntegFields _ _ _ (fun _ => rfl) List.nodup_nil (show (["name", "algorithm"] : List String).Nodup by decide +kernel) rfl rfl
instance : XNamed X.ikev2Integ := xikev2_named _ _ _ _

instance : XFieldsLawful X.ikev2KeFields := by unfold X.ikev2KeFields; infer_instance
instance : XLawful X.ikev2Ke :=
  xikev2_lawful X.ikev2KeFields _ _ _ (fun _ => rfl) List.nodup_nil (show (["group", "algorithm"] : List String).Nodup by decide +kernel) rfl rfl
instance : XNamed X.ikev2Ke := xikev2_named _ _ _ _

instance : XFieldsLawful X.ikev2PrfFields := by unfold X.ikev2PrfFields; infer_instance
instance : XLawful X.ikev2Prf :=
  xikev2_lawful X.ikev2PrfFields _ _ _ (fun _ => rfl) List.nodup_nil (show (["name", "algorithm"] : List String).Nodup by decide +kernel) rfl rfl
instance : XNamed X.ikev2Prf := xikev2_named _ _ _ _

instance : XFieldsLawful X.ikev2TransformTypesFields := by unfold X.ikev2TransformTypesFields; infer_instance
instance : XLawful X.ikev2TransformTypes :=
  xstruct_lawful X.ikev2TransformTypesFields _ _ (fun _ => rfl)
    List.nodup_nil
    (show (["encr", "prf", "integ", "ke", "esn", "auth"] : List String).Nodup by decide +kernel) (show (0 : Nat) ≤ 1 by decide)
instance : XNamed X.ikev2TransformTypes := xstruct_named X.ikev2TransformTypesFields _ _

instance : XFieldsLawful X.cryptoProtocolPropertiesFields := by unfold X.cryptoProtocolPropertiesFields; infer_instance
instance : XLawful X.cryptoProtocolProperties :=
  xstruct_lawful X.cryptoProtocolPropertiesFields _ _ (fun _ => rfl)
    List.nodup_nil
    (show (["type", "version", "cipherSuites", "ikev2TransformTypes", "cryptoRefArray", "relatedCryptographicAssets"] : List String).Nodup by decide +kernel) (show (0 : Nat) ≤ 1 by decide)
instance : XNamed X.cryptoProtocolProperties := xstruct_named X.cryptoProtocolPropertiesFields _ _

instance : XFieldsLawful X.securedByFields := by unfold X.securedByFields; infer_instance
instance : XLawful X.securedBy :=
  xstruct_lawful X.securedByFields _ _ (fun _ => rfl)
    List.nodup_nil
    (show (["mechanism", "algorithmRef"] : List String).Nodup by decide +kernel) (show (0 : Nat) ≤ 1 by decide)
instance : XNamed X.securedBy := xstruct_named X.securedByFields _ _

instance : XFieldsLawful X.relatedCryptoMaterialPropertiesFields := by unfold X.relatedCryptoMaterialPropertiesFields; infer_instance
instance : XLawful X.relatedCryptoMaterialProperties :=
  xstruct_lawful X.relatedCryptoMaterialPropertiesFields _ _ (fun _ => rfl)
    List.nodup_nil
    (show (["type", "id", "state", "algorithmRef", "creationDate", "activationDate", "updateDate", "expirationDate", "value", "size", "format", "securedBy", "fingerprint", "relatedCryptographicAssets"] : List String).Nodup by decide +kernel) (show (0 : Nat) ≤ 1 by decide)
instance : XNamed X.relatedCryptoMaterialProperties := xstruct_named X.relatedCryptoMaterialPropertiesFields _ _

instance : XFieldsLawful X.cryptoPropertiesFields := by unfold X.cryptoPropertiesFields; infer_instance
instance : XLawful X.cryptoProperties :=
  xstruct_lawful X.cryptoPropertiesFields _ _ (fun _ => rfl)
    List.nodup_nil
    (show (["assetType", "algorithmProperties", "certificateProperties", "relatedCryptoMaterialProperties", "protocolProperties", "oid"] : List String).Nodup by decide +kernel) (show (0 : Nat) ≤ 1 by decide)
instance : XNamed X.cryptoProperties := xstruct_named X.cryptoPropertiesFields _ _

instance : XFieldsLawful X.callstackFrameFields := by unfold X.callstackFrameFields; infer_instance
instance : XLawful X.callstackFrame :=
  xstruct_lawful X.callstackFrameFields _ _ (fun _ => rfl)
    List.nodup_nil
    (show (["package", "module", "function", "parameters", "line", "column", "fullFilename"] : List String).Nodup by decide +kernel) (show (0 : Nat) ≤ 1 by decide)
instance : XNamed X.callstackFrame := xstruct_named X.callstackFrameFields _ _

instance : XFieldsLawful X.callstackFields := by unfold X.callstackFields; infer_instance
instance : XLawful X.callstack :=
  xstruct_lawful X.callstackFields _ _ (fun _ => rfl)
    List.nodup_nil
    (show (["frames"] : List String).Nodup by decide +kernel) (show (0 : Nat) ≤ 1 by decide)
instance : XNamed X.callstack := xstruct_named X.callstackFields _ _

instance : XLawful X.copyright where
  round n a x g h := by
    simp only [X.copyright, XCodec.simple, Option.some.injEq] at h
    subst h
    simp [X.copyright, XCodec.simple, XText.string, Xml.kids]
  named n a x h := by
    simp only [X.copyright, XCodec.simple, Option.some.injEq] at h
    subst h
    simp [Xml.isElem, X.copyright]
  writes n a o h := by
    simp only [X.copyright, XCodec.simple, Option.some.injEq] at h
    subst h; rfl
instance : XNamed X.copyright := ⟨fun _ => rfl⟩

instance : XFieldsLawful X.evidenceIdentityMethodFields := by unfold X.evidenceIdentityMethodFields; infer_instance
instance : XLawful X.evidenceIdentityMethod :=
  xstruct_lawful X.evidenceIdentityMethodFields _ _ (fun _ => rfl)
    List.nodup_nil
    (show (["technique", "confidence", "value"] : List String).Nodup by decide +kernel) (show (0 : Nat) ≤ 1 by decide)
instance : XNamed X.evidenceIdentityMethod := xstruct_named X.evidenceIdentityMethodFields _ _

instance : XFieldsLawful X.evidenceIdentityFields := by unfold X.evidenceIdentityFields; infer_instance
instance : XLawful X.evidenceIdentity :=
  xstruct_lawful X.evidenceIdentityFields _ _ (fun _ => rfl)
    List.nodup_nil
    (show (["field", "confidence", "concludedValue", "methods", "tools"] : List String).Nodup by decide +kernel) (show (0 : Nat) ≤ 1 by decide)
instance : XNamed X.evidenceIdentity := xstruct_named X.evidenceIdentityFields _ _

instance : XFieldsLawful X.evidenceOccurrenceFields := by unfold X.evidenceOccurrenceFields; infer_instance
instance : XLawful X.evidenceOccurrence :=
  xstruct_lawful X.evidenceOccurrenceFields _ _ (fun _ => rfl)
    (show (["bom-ref", "line", "offset", "symbol", "additionalContext"] : List String).Nodup by decide +kernel)
    (show (["location"] : List String).Nodup by decide +kernel) (show (0 : Nat) ≤ 1 by decide)
instance : XNamed X.evidenceOccurrence := xstruct_named X.evidenceOccurrenceFields _ _

instance : XFieldsLawful X.organizationalEntityOrContactFields := by unfold X.organizationalEntityOrContactFields; infer_instance
instance : XLawful X.organizationalEntityOrContact :=
  xstruct_lawful X.organizationalEntityOrContactFields _ _ (fun _ => rfl)
    List.nodup_nil
    (show (["organization", "individual"] : List String).Nodup by decide +kernel) (show (0 : Nat) ≤ 1 by decide)
instance : XNamed X.organizationalEntityOrContact := xstruct_named X.organizationalEntityOrContactFields _ _

instance : XFieldsLawful X.licensingFields := by unfold X.licensingFields; infer_instance
instance : XLawful X.licensing :=
  xstruct_lawful X.licensingFields _ _ (fun _ => rfl)
    List.nodup_nil
    (show (["altIds", "licensor", "licensee", "purchaser", "purchaseOrder", "licenseTypes", "lastRenewal", "expiration"] : List String).Nodup by decide +kernel) (show (0 : Nat) ≤ 1 by decide)
instance : XNamed X.licensing := xstruct_named X.licensingFields _ _

instance : XFieldsLawful X.licenseFields := by unfold X.licenseFields; infer_instance
instance : XLawful X.licenseAlias :=
  xstruct_lawful X.licenseFields _ _ (fun _ => rfl)
    (show (["bom-ref", "acknowledgement"] : List String).Nodup by decide +kernel)
    (show (["id", "name", "text", "url", "licensing", "properties"] : List String).Nodup by decide +kernel) (show (0 : Nat) ≤ 1 by decide)
instance : XNamed X.licenseAlias := xstruct_named X.licenseFields _ _

instance : XLawful X.license where
  round n l x g h := by
    simp only [X.license] at h
    split at h
    · cases h
    · split at h
      · cases h
      · exact XLawful.round (c := X.licenseAlias) n l x g h
  named n l x h := by
    simp only [X.license] at h
    split at h
    · cases h
    · split at h
      · cases h
      · exact XLawful.named (c := X.licenseAlias) n l x h
  writes n l o h := by
    simp only [X.license] at h
    split at h
    · cases h
    · split at h
      · cases h
      · exact XLawful.writes (c := X.licenseAlias) n l o h
instance : XNamed X.license := ⟨fun _ => rfl⟩

instance : XFieldsLawful X.licenseExpressionDetailFields := by unfold X.licenseExpressionDetailFields; infer_instance
instance : XLawful X.licenseExpressionDetail :=
  xstruct_lawful X.licenseExpressionDetailFields _ _ (fun _ => rfl)
    (by simp [X.licenseExpressionDetailFields, XFields.attrNames])
    (by simp [X.licenseExpressionDetailFields, XFields.elemNames, XField.ptr, XField.plain])
    (by simp [X.licenseExpressionDetailFields, XFields.texts])
instance : XNamed X.licenseExpressionDetail := ⟨fun _ => rfl⟩
instance : XFieldsLawful X.licenseExpressionFields := by unfold X.licenseExpressionFields; infer_instance
instance : XFieldsLawful X.licenseExpressionDetailedFields := by unfold X.licenseExpressionDetailedFields; infer_instance

theorem licenseExpression_lawful : XLawful (XCodec.struct X.licenseExpressionFields id id) :=
  xstruct_lawful X.licenseExpressionFields _ _ (fun _ => rfl)
    (by simp [X.licenseExpressionFields, XFields.attrNames]) (by simp [X.licenseExpressionFields, XFields.elemNames])
    (by simp [X.licenseExpressionFields, XFields.texts])

theorem licenseExpressionDetailed_lawful : XLawful (XCodec.struct X.licenseExpressionDetailedFields id id) :=
  xstruct_lawful X.licenseExpressionDetailedFields _ _ (fun _ => rfl)
    (by simp [X.licenseExpressionDetailedFields, XFields.attrNames])
    (by simp [X.licenseExpressionDetailedFields, XFields.elemNames, XField.list])
    (by simp [X.licenseExpressionDetailedFields, XFields.texts])

/-- The values of the text of a license whose codec is lawful are all good. -/
theorem licenseExpressionDetail_good (d : LicenseExpressionDetail) : X.licenseExpressionDetail.good d := by
  simp [X.licenseExpressionDetail, XCodec.struct, X.licenseExpressionDetailFields, XFields.good, XText.string, XField.ptr,
    XField.plain, XCodec.simple, X.attachedText, X.attachedTextFields]

theorem licenseChoice_round (c : LicenseChoice) (ks : List Xml) (g : ∀ m ∈ c.license, X.license.good m)
    (h : X.licenseChoiceEnc c = some ks) : X.decEach X.licenseChoiceDec ks = some (X.licenseChoiceNorm c) := by
  cases hl : c.license with
  | some l =>
    simp only [X.licenseChoiceEnc, hl] at h
    split at h
    · cases h
    · obtain ⟨o, ho, rfl⟩ := Option.map_eq_some_iff.1 h
      rcases XField.enc_cases ho with ⟨hw, -⟩ | ⟨-, x, rfl, hx⟩
      · simp [X.license, X.licenseAlias, XCodec.struct] at hw
      · have hr := XLawful.round "license" l x (g l hl) ho
        obtain ⟨as, ks, rfl⟩ := Xml.isElem_elim hx
        simp only [Option.toList_some, decEach_single, X.licenseChoiceNorm, hl]
        have hn : X.license.rename "license" = "license" := rfl
        rw [hn] at hr ⊢
        simp [X.licenseChoiceDec, hr]
  | none =>
    simp only [X.licenseChoiceEnc, X.licenseChoiceNorm, hl] at h ⊢
    by_cases he : c.expression = ""
    · simp [he] at h; subst h; simp [he, X.decEach]
    · simp only [he, ne_eq, not_false_iff, if_true] at h ⊢
      cases hd : c.expressionDetails.isNil with
      | true =>
        simp only [hd, if_true] at h
        have hnil : c.expressionDetails = .nil := by
          cases hx : c.expressionDetails <;> simp_all [PSlice.isNil]
        obtain ⟨o, ho, rfl⟩ := Option.map_eq_some_iff.1 h
        rcases @XField.enc_cases _ _ licenseExpression_lawful _ _ _ ho with ⟨hw, -⟩ | ⟨-, x, rfl, hx⟩
        · simp [XCodec.struct] at hw
        · have hr := licenseExpression_lawful.round "expression" _ x (by
            simp [XCodec.struct, X.licenseExpressionFields, XFields.good, XText.string]) ho
          have hn : (XCodec.struct X.licenseExpressionFields id id).rename "expression" = "expression" := rfl
          rw [hn] at hx
          obtain ⟨as, ks, rfl⟩ := Xml.isElem_elim hx
          simp only [XCodec.struct, id, Option.map_eq_some_iff] at hr
          obtain ⟨p, hp, rfl⟩ := hr
          simp only [Option.toList_some, decEach_single]
          simp only [X.licenseChoiceDec, if_true, hp, Option.map_some, hnil]
          simp only [X.licenseExpressionFields, XFields.norm, xplain_string_norm]
          rfl
      | false =>
        simp only [hd, Bool.false_eq_true, if_false] at h
        obtain ⟨o, ho, rfl⟩ := Option.map_eq_some_iff.1 h
        rcases @XField.enc_cases _ _ licenseExpressionDetailed_lawful _ _ _ ho with ⟨hw, -⟩ | ⟨-, x, rfl, hx⟩
        · simp [XCodec.struct] at hw
        · have hr := licenseExpressionDetailed_lawful.round "expression-detailed" _ x (by
            simp only [XCodec.struct, X.licenseExpressionDetailedFields, XFields.good, XText.string, XField.list, true_and,
              and_true, id]
            exact fun d _ => licenseExpressionDetail_good d) ho
          have hn : (XCodec.struct X.licenseExpressionDetailedFields id id).rename "expression-detailed" =
            "expression-detailed" := rfl
          rw [hn] at hx
          obtain ⟨as, ks, rfl⟩ := Xml.isElem_elim hx
          simp only [XCodec.struct, id, Option.map_eq_some_iff] at hr
          obtain ⟨p, hp, rfl⟩ := hr
          have h1 : ("expression-detailed" : String) ≠ "expression" := by decide
          simp only [Option.toList_some, decEach_single]
          simp only [X.licenseChoiceDec, if_neg h1, if_true, hp, Option.map_some]
          simp only [X.licenseExpressionDetailedFields, XFields.norm, xplain_string_norm]
          rfl

instance : XSliceLawful X.licenses where
  round n ls x g h := by
    cases ls with
    | nil => simp [X.licenses] at h
    | cons l ls =>
      simp only [X.licenses, Option.map_eq_some_iff, Option.some.injEq] at h
      obtain ⟨ks, hk, rfl⟩ := h
      exact each_round licenseChoice_round (l :: ls) ks g hk
  named n ls x h := by
    cases ls with
    | nil => simp [X.licenses] at h
    | cons l ls =>
      simp only [X.licenses, Option.map_eq_some_iff, Option.some.injEq] at h
      obtain ⟨ks, hk, rfl⟩ := h
      simp [Xml.isElem, X.licenses]
  writes n ls o h := by
    cases ls with
    | nil => simp only [X.licenses, Option.some.injEq] at h; subst h; rfl
    | cons l ls =>
      simp only [X.licenses, Option.map_eq_some_iff] at h
      obtain ⟨ks, hk, rfl⟩ := h
      rfl
  rename _ := rfl
  zero := rfl

instance : XFieldsLawful X.evidenceFields := by unfold X.evidenceFields; infer_instance

theorem identityFold (is js : List EvidenceIdentity) (ev : Evidence) :
    is.foldl (fun (st : List EvidenceIdentity × Evidence) i => (st.1 ++ [i], st.2)) (js, ev) = (js ++ is, ev) := by
  induction is generalizing js with
  | nil => simp
  | cons t ts ih => simp [ih]

theorem evidenceIdentity_step {as : PSlice EvidenceIdentity} {ks : List Xml} (ev : Evidence)
    (g : ∀ t ∈ as.elems, X.evidenceIdentity.good t) (h : (XField.list "identity" true X.evidenceIdentity).enc as = some ks) :
    XField.decAll X.evidenceStep ks ([], ev) = some (XField.normList true X.evidenceIdentity as.elems, ev) := by
  rw [XField.encList_foldl (c := X.evidenceIdentity) (n := "identity") (oe := true)
    (app := fun (st : List EvidenceIdentity × Evidence) i => (st.1 ++ [i], st.2)) ?_ _ g h, identityFold]
  · rfl
  · intro x s hx
    obtain ⟨as, ks, rfl⟩ := Xml.isElem_elim hx
    have hn : X.evidenceIdentity.rename "identity" = "identity" := rfl
    simp only [X.evidenceStep, hn, if_true]

theorem evidenceOccurrences_step {as : PSlice EvidenceOccurrence} {ks : List Xml} (is : List EvidenceIdentity)
    (ev : Evidence) (he : ev.occurrences = .nil) (g : ∀ t ∈ as.elems, X.evidenceOccurrence.good t)
    (h : (XField.nlist "occurrences" "occurrence" true X.evidenceOccurrence).enc as = some ks) :
    XField.decAll X.evidenceStep ks (is, ev) =
      some (is, { ev with occurrences := XField.ofList (XField.normList true X.evidenceOccurrence as.elems) }) := by
  by_cases e : as = .nil
  · subst e
    simp only [XField.nlist, Option.some.injEq] at h; subst h
    simp only [XField.decAll, PSlice.elems, XField.normList, List.filter_nil, List.map_nil, XField.ofList, ← he]
  · rw [XField.nlist_enc_ne_nil e] at h
    obtain ⟨ks', hk, rfl⟩ := Option.map_eq_some_iff.1 h
    have hd := dec_list_first (m := "occurrences") (F := .elem (.list "text" true X.copyright) .nil)
      (by simp [XFields.texts]) g hk
    have h1 : ("occurrences" : String) ≠ "identity" := by decide
    simp only [XField.decAll_single, X.evidenceStep, if_neg h1, if_true]
    unfold X.evidenceRaw
    rw [hd]
    simp only [Option.map_some, Option.some.injEq, ofList_isNil]
    cases XField.normList true X.evidenceOccurrence as.elems <;> simp [XField.ofList, ← he]

theorem evidenceCallstack_step {c : Option Callstack} {ks : List Xml} (is : List EvidenceIdentity)
    (ev : Evidence) (he : ev.callstack = none) (g : ∀ t ∈ c, X.callstack.good t)
    (h : (XField.ptr "callstack" X.callstack).enc c = some ks) :
    XField.decAll X.evidenceStep ks (is, ev) =
      some (is, { ev with callstack := X.callstackNorm c }) := by
  cases c with
  | none =>
    simp only [XField.ptr, Option.some.injEq] at h; subst h
    simp only [XField.decAll, X.callstackNorm, ← he]
  | some c =>
    simp only [XField.ptr] at h
    obtain ⟨o, ho, rfl⟩ := Option.map_eq_some_iff.1 h
    rcases XField.enc_cases ho with ⟨hw, -⟩ | ⟨-, x, rfl, hx⟩
    · simp [X.callstack, XCodec.struct] at hw
    · have hr := XLawful.round "callstack" c x (g c rfl) ho
      have hn : X.callstack.rename "callstack" = "callstack" := rfl
      rw [hn] at hx
      obtain ⟨as, ks, rfl⟩ := Xml.isElem_elim hx
      have h1 : ("callstack" : String) ≠ "identity" := by decide
      have h2 : ("callstack" : String) ≠ "occurrences" := by decide
      simp only [Option.toList_some, XField.decAll_single, X.evidenceStep, if_neg h1, if_neg h2, if_true, hr,
        Option.map_some, Option.some.injEq, X.callstackNorm]
      split
      · rfl
      · simp only [← he]

theorem evidenceLicenses_step {as : PSlice LicenseChoice} {ks : List Xml} (is : List EvidenceIdentity)
    (ev : Evidence) (he : ev.licenses = .nil) (g : X.licenses.good as.elems)
    (h : (XField.slice "licenses" X.licenses).enc as = some ks) :
    XField.decAll X.evidenceStep ks (is, ev) =
      some (is, { ev with licenses := XField.ofList (X.licenses.norm as.elems) }) := by
  by_cases e : as = .nil
  · subst e
    simp only [XField.slice, Option.some.injEq] at h; subst h
    simp only [XField.decAll, PSlice.elems, X.licenses, List.flatMap_nil, XField.ofList, ← he]
  · rw [XField.slice_enc_ne_nil e] at h
    obtain ⟨o, ho, rfl⟩ := Option.map_eq_some_iff.1 h
    rcases XField.enc_cases ho with ⟨hw, rfl⟩ | ⟨-, x, rfl, hx⟩
    · have : as.elems = [] := by simpa [X.licenses] using hw
      rw [this]
      simp only [Option.toList_none, XField.decAll, X.licenses, List.flatMap_nil, XField.ofList, ← he]
    · have hr := XLawful.round "licenses" as.elems x g ho
      have hn : X.licenses.rename "licenses" = "licenses" := rfl
      rw [hn] at hx
      obtain ⟨bs, ks, rfl⟩ := Xml.isElem_elim hx
      have h1 : ("licenses" : String) ≠ "identity" := by decide
      have h2 : ("licenses" : String) ≠ "occurrences" := by decide
      have h3 : ("licenses" : String) ≠ "callstack" := by decide
      simp only [Option.toList_some, XField.decAll_single, X.evidenceStep, if_neg h1, if_neg h2, if_neg h3, if_true, hr,
        Option.map_some, Option.some.injEq]
      cases X.licenses.norm as.elems <;> simp [XField.ofList, ← he]

theorem evidenceCopyright_step {as : PSlice Copyright} {ks : List Xml} (is : List EvidenceIdentity)
    (ev : Evidence) (he : ev.copyright = .nil) (g : ∀ t ∈ as.elems, X.copyright.good t)
    (h : (XField.nlist "copyright" "text" true X.copyright).enc as = some ks) :
    XField.decAll X.evidenceStep ks (is, ev) =
      some (is, { ev with copyright := XField.ofList (XField.normList true X.copyright as.elems) }) := by
  by_cases e : as = .nil
  · subst e
    simp only [XField.nlist, Option.some.injEq] at h; subst h
    simp only [XField.decAll, PSlice.elems, XField.normList, List.filter_nil, List.map_nil, XField.ofList, ← he]
  · rw [XField.nlist_enc_ne_nil e] at h
    obtain ⟨ks', hk, rfl⟩ := Option.map_eq_some_iff.1 h
    have hd := dec_list_second (m := "copyright") (f := .list "occurrence" true X.evidenceOccurrence) (F := .nil)
      (by simp [XFields.texts]) (by simp [XField.list]) g hk
    have h1 : ("copyright" : String) ≠ "identity" := by decide
    have h2 : ("copyright" : String) ≠ "occurrences" := by decide
    have h3 : ("copyright" : String) ≠ "callstack" := by decide
    have h4 : ("copyright" : String) ≠ "licenses" := by decide
    simp only [XField.decAll_single, X.evidenceStep, if_neg h1, if_neg h2, if_neg h3, if_neg h4, if_true]
    unfold X.evidenceRaw
    rw [hd]
    simp only [Option.map_some, Option.some.injEq, ofList_isNil]
    cases XField.normList true X.copyright as.elems <;> simp [XField.ofList, ← he]

instance : XLawful X.evidence where
  round n ev x g h := by
    simp only [X.evidence] at h
    split at h
    · cases h
    · simp only [XCodec.struct, id, Option.map_eq_some_iff, Option.some.injEq] at h
      obtain ⟨ks, hk, rfl⟩ := h
      have g : X.evidenceFields.good _ := g
      unfold X.evidenceFields at hk g
      obtain ⟨k₁, ks₁, h₁, hk₁, rfl⟩ := encKids_elem hk
      obtain ⟨k₂, ks₂, h₂, hk₂, rfl⟩ := encKids_elem hk₁
      obtain ⟨k₃, ks₃, h₃, hk₃, rfl⟩ := encKids_elem hk₂
      obtain ⟨k₄, ks₄, h₄, hk₄, rfl⟩ := encKids_elem hk₃
      obtain ⟨k₅, ks₅, h₅, hk₅, rfl⟩ := encKids_elem hk₄
      simp only [XFields.encKids, Option.some.injEq] at hk₅; subst hk₅
      obtain ⟨g₁, g₂, g₃, g₄, g₅, -⟩ := g
      simp only [X.evidence, Xml.kids, List.append_nil]
      rw [XField.decAll_append, evidenceIdentity_step _ g₁ h₁]
      simp only [Option.bind_some]
      rw [XField.decAll_append, evidenceOccurrences_step _ _ rfl g₂ h₂]
      simp only [Option.bind_some]
      rw [XField.decAll_append, evidenceCallstack_step _ _ rfl g₃ h₃]
      simp only [Option.bind_some]
      rw [XField.decAll_append, evidenceLicenses_step _ _ rfl g₄ h₄]
      simp only [Option.bind_some]
      rw [evidenceCopyright_step _ _ rfl g₅ h₅]
      simp only [Option.map_some, Option.some.injEq]
      cases XField.normList true X.evidenceIdentity (X.evidenceIdentities ev).elems <;> simp
  named n ev x h := by
    simp only [X.evidence] at h ⊢
    split at h
    · cases h
    · simp only [XCodec.struct, Option.map_eq_some_iff, Option.some.injEq] at h
      obtain ⟨ks, -, rfl⟩ := h; simp [Xml.isElem]
  writes n ev o h := by
    simp only [X.evidence] at h ⊢
    split at h
    · rename_i he
      simp only [Option.some.injEq] at h; subst h
      simp [he.1, he.2.1, he.2.2.1, he.2.2.2.1, he.2.2.2.2]
    · rename_i he
      simp only [XCodec.struct, Option.map_eq_some_iff] at h
      obtain ⟨ks, -, rfl⟩ := h
      simp only [Option.isSome_some]
      symm
      rw [Bool.not_eq_true', ← Bool.not_eq_true]
      simpa [and_assoc] using he
instance : XNamed X.evidence := ⟨fun _ => rfl⟩

instance : XFieldsLawful X.externalReferenceFields := by unfold X.externalReferenceFields; infer_instance
instance : XLawful X.externalReference :=
  xstruct_lawful X.externalReferenceFields _ _ (fun _ => rfl)
    (show (["type"] : List String).Nodup by decide +kernel)
    (show (["url", "comment", "hashes", "properties"] : List String).Nodup by decide +kernel) (show (0 : Nat) ≤ 1 by decide)
instance : XNamed X.externalReference := xstruct_named X.externalReferenceFields _ _

instance : XFieldsLawful X.mlModelCO2MeasureFields := by unfold X.mlModelCO2MeasureFields; infer_instance
instance : XLawful X.mlModelCO2Measure :=
  xstruct_lawful X.mlModelCO2MeasureFields _ _ (fun _ => rfl)
    List.nodup_nil
    (show (["value", "unit"] : List String).Nodup by decide +kernel) (show (0 : Nat) ≤ 1 by decide)
instance : XNamed X.mlModelCO2Measure := xstruct_named X.mlModelCO2MeasureFields _ _

instance : XFieldsLawful X.mlModelEnergyMeasureFields := by unfold X.mlModelEnergyMeasureFields; infer_instance
instance : XLawful X.mlModelEnergyMeasure :=
  xstruct_lawful X.mlModelEnergyMeasureFields _ _ (fun _ => rfl)
    List.nodup_nil
    (show (["value", "unit"] : List String).Nodup by decide +kernel) (show (0 : Nat) ≤ 1 by decide)
instance : XNamed X.mlModelEnergyMeasure := xstruct_named X.mlModelEnergyMeasureFields _ _

instance : XFieldsLawful X.mlModelEnergyProviderFields := by unfold X.mlModelEnergyProviderFields; infer_instance
instance : XLawful X.mlModelEnergyProvider :=
  xstruct_lawful X.mlModelEnergyProviderFields _ _ (fun _ => rfl)
    (show (["bom-ref"] : List String).Nodup by decide +kernel)
    (show (["description", "organization", "energySource", "energyProvided", "externalReferences"] : List String).Nodup by decide +kernel) (show (0 : Nat) ≤ 1 by decide)
instance : XNamed X.mlModelEnergyProvider := xstruct_named X.mlModelEnergyProviderFields _ _

instance : XFieldsLawful X.mlModelEnergyConsumptionFields := by unfold X.mlModelEnergyConsumptionFields; infer_instance
instance : XLawful X.mlModelEnergyConsumption :=
  xstruct_lawful X.mlModelEnergyConsumptionFields _ _ (fun _ => rfl)
    List.nodup_nil
    (show (["activity", "energyProviders", "activityEnergyCost", "co2CostEquivalent", "co2CostOffset", "properties"] : List String).Nodup by decide +kernel) (show (0 : Nat) ≤ 1 by decide)
instance : XNamed X.mlModelEnergyConsumption := xstruct_named X.mlModelEnergyConsumptionFields _ _

instance : XFieldsLawful X.mlModelCardEnvironmentalConsiderationsFields := by unfold X.mlModelCardEnvironmentalConsiderationsFields; infer_instance
instance : XLawful X.mlModelCardEnvironmentalConsiderations :=
  xstruct_lawful X.mlModelCardEnvironmentalConsiderationsFields _ _ (fun _ => rfl)
    List.nodup_nil
    (show (["energyConsumptions", "properties"] : List String).Nodup by decide +kernel) (show (0 : Nat) ≤ 1 by decide)
instance : XNamed X.mlModelCardEnvironmentalConsiderations := xstruct_named X.mlModelCardEnvironmentalConsiderationsFields _ _

instance : XFieldsLawful X.mlModelCardEthicalConsiderationFields := by unfold X.mlModelCardEthicalConsiderationFields; infer_instance
instance : XLawful X.mlModelCardEthicalConsideration :=
  xstruct_lawful X.mlModelCardEthicalConsiderationFields _ _ (fun _ => rfl)
    List.nodup_nil
    (show (["name", "mitigationStrategy"] : List String).Nodup by decide +kernel) (show (0 : Nat) ≤ 1 by decide)
instance : XNamed X.mlModelCardEthicalConsideration := xstruct_named X.mlModelCardEthicalConsiderationFields _ _

instance : XFieldsLawful X.mlModelCardFairnessAssessmentFields := by unfold X.mlModelCardFairnessAssessmentFields; infer_instance
instance : XLawful X.mlModelCardFairnessAssessment :=
  xstruct_lawful X.mlModelCardFairnessAssessmentFields _ _ (fun _ => rfl)
    List.nodup_nil
    (show (["groupAtRisk", "benefits", "harms", "mitigationStrategy"] : List String).Nodup by decide +kernel) (show (0 : Nat) ≤ 1 by decide)
instance : XNamed X.mlModelCardFairnessAssessment := xstruct_named X.mlModelCardFairnessAssessmentFields _ _

instance : XFieldsLawful X.mlModelCardConsiderationsFields := by unfold X.mlModelCardConsiderationsFields; infer_instance
instance : XLawful X.mlModelCardConsiderations :=
  xstruct_lawful X.mlModelCardConsiderationsFields _ _ (fun _ => rfl)
    List.nodup_nil
    (show (["users", "useCases", "technicalLimitations", "performanceTradeoffs", "ethicalConsiderations", "environmentalConsiderations", "fairnessAssessments"] : List String).Nodup by decide +kernel) (show (0 : Nat) ≤ 1 by decide)
instance : XNamed X.mlModelCardConsiderations := xstruct_named X.mlModelCardConsiderationsFields _ _

theorem componentDataFields_noref (b : ComponentData.P) (ks : List Xml) (h : X.componentDataFields.encKids b = some ks) :
    ∀ y ∈ ks, y.isElem "ref" = false := by
  intro y hy
  rcases XFieldsLawful.kids b ks h y hy with ⟨n, hn, he⟩ | ⟨s, rfl⟩
  · refine XField.isElem_ne he fun e => ?_
    subst e
    simp [X.componentDataFields, XFields.elemNames, XField.plain, XField.ptr, XField.list, XField.nlist] at hn
  · rfl

instance : XLawful X.mlDatasetChoice where
  round n dc x g h := by
    by_cases hr : dc.ref = ""
    · cases hc : dc.componentData with
      | none => simp [X.mlDatasetChoice, hr, hc] at h
      | some d =>
        simp only [X.mlDatasetChoice, hr, hc, ne_eq, not_true, if_false] at h g ⊢
        have hd := XLawful.round n d x (g trivial d rfl) h
        have h' := h
        simp only [X.componentData, XCodec.struct] at h'
        obtain ⟨ks, hk, e⟩ := Option.map_eq_some_iff.1 h'
        simp only [Option.some.injEq] at e; subst e
        have hz : X.mlDatasetChoiceFields.zero = ("", X.componentDataFields.zero) := rfl
        rw [hz]
        unfold X.mlDatasetChoiceFields
        rw [dec_others]
        case h => exact componentDataFields_noref _ _ hk
        simp only [X.componentData, XCodec.struct] at hd
        obtain ⟨p, hp, hpe⟩ := Option.map_eq_some_iff.1 hd
        have hz' : ComponentData.toP (ComponentData.ofP X.componentDataFields.zero) = X.componentDataFields.zero := rfl
        rw [hz'] at hp
        rw [hp]
        simp only [Option.map_some, hpe]
        simp only [X.componentData, XCodec.struct]
        by_cases hz : (ComponentData.ofP (X.componentDataFields.norm (ComponentData.toP d))).isZero = true <;> simp [hz]
    · simp only [X.mlDatasetChoice, hr, ne_eq, not_false_iff, if_true, X.mlDatasetChoiceRef, XCodec.struct,
        XFields.encAttrs] at h ⊢
      obtain ⟨ks, hk, e⟩ := Option.map_eq_some_iff.1 h
      simp only [Option.some.injEq] at e; subst e
      simp [XFields.encKids, XField.plain, XCodec.simple, XText.string] at hk
      subst hk
      have hz : X.mlDatasetChoiceFields.zero = ("", X.componentDataFields.zero) := rfl
      rw [hz]
      unfold X.mlDatasetChoiceFields
      rw [dec_own _ _ _ _ _ _ (by simp [X.componentDataFields, XFields.texts]) (by simp [Xml.isElem, XField.plain])]
      simp [XField.decAll, XField.plain, XCodec.simple, XText.string, Xml.kids, sanitize_eq_empty, hr]
  named n dc x h := by
    simp only [X.mlDatasetChoice] at h ⊢
    split at h
    · simp only [X.mlDatasetChoiceRef, XCodec.struct, Option.map_eq_some_iff, Option.some.injEq] at h
      obtain ⟨ks, -, rfl⟩ := h; simp [Xml.isElem]
    · split at h
      · exact XLawful.named n _ x h
      · cases h
  writes n dc o h := by
    simp only [X.mlDatasetChoice] at h ⊢
    split at h
    · rename_i hr
      simp only [X.mlDatasetChoiceRef, XCodec.struct, Option.map_eq_some_iff] at h
      obtain ⟨ks, -, rfl⟩ := h; simp [hr]
    · rename_i hr
      split at h
      · rename_i d hd
        have := XLawful.writes n _ o h
        rw [this, hd]
        simp [X.componentData, XCodec.struct]
      · rename_i hd
        simp only [Option.some.injEq] at h; subst h
        have hr : dc.ref = "" := by simpa using hr
        simp [hr, hd]
instance : XNamed X.mlDatasetChoice := ⟨fun _ => rfl⟩

instance : XFieldsLawful X.mlInputOutputParametersFields := by unfold X.mlInputOutputParametersFields; infer_instance
instance : XLawful X.mlInputOutputParameters :=
  xstruct_lawful X.mlInputOutputParametersFields _ _ (fun _ => rfl)
    List.nodup_nil
    (show (["format"] : List String).Nodup by decide +kernel) (show (0 : Nat) ≤ 1 by decide)
instance : XNamed X.mlInputOutputParameters := xstruct_named X.mlInputOutputParametersFields _ _

instance : XFieldsLawful X.mlModelParametersApproachFields := by unfold X.mlModelParametersApproachFields; infer_instance
instance : XLawful X.mlModelParametersApproach :=
  xstruct_lawful X.mlModelParametersApproachFields _ _ (fun _ => rfl)
    List.nodup_nil
    (show (["type"] : List String).Nodup by decide +kernel) (show (0 : Nat) ≤ 1 by decide)
instance : XNamed X.mlModelParametersApproach := xstruct_named X.mlModelParametersApproachFields _ _

instance : XFieldsLawful X.mlModelParametersFields := by unfold X.mlModelParametersFields; infer_instance
instance : XLawful X.mlModelParameters :=
  xstruct_lawful X.mlModelParametersFields _ _ (fun _ => rfl)
    List.nodup_nil
    (show (["approach", "task", "architectureFamily", "modelArchitecture", "datasets", "inputs", "outputs"] : List String).Nodup by decide +kernel) (show (0 : Nat) ≤ 1 by decide)
instance : XNamed X.mlModelParameters := xstruct_named X.mlModelParametersFields _ _

instance : XFieldsLawful X.mlPerformanceMetricConfidenceIntervalFields := by unfold X.mlPerformanceMetricConfidenceIntervalFields; infer_instance
instance : XLawful X.mlPerformanceMetricConfidenceInterval :=
  xstruct_lawful X.mlPerformanceMetricConfidenceIntervalFields _ _ (fun _ => rfl)
    List.nodup_nil
    (show (["lowerBound", "upperBound"] : List String).Nodup by decide +kernel) (show (0 : Nat) ≤ 1 by decide)
instance : XNamed X.mlPerformanceMetricConfidenceInterval := xstruct_named X.mlPerformanceMetricConfidenceIntervalFields _ _

instance : XFieldsLawful X.mlPerformanceMetricFields := by unfold X.mlPerformanceMetricFields; infer_instance
instance : XLawful X.mlPerformanceMetric :=
  xstruct_lawful X.mlPerformanceMetricFields _ _ (fun _ => rfl)
    List.nodup_nil
    (show (["type", "value", "slice", "confidenceInterval"] : List String).Nodup by decide +kernel) (show (0 : Nat) ≤ 1 by decide)
instance : XNamed X.mlPerformanceMetric := xstruct_named X.mlPerformanceMetricFields _ _

instance : XFieldsLawful X.mlQuantitativeAnalysisFields := by unfold X.mlQuantitativeAnalysisFields; infer_instance
instance : XLawful X.mlQuantitativeAnalysis :=
  xstruct_lawful X.mlQuantitativeAnalysisFields _ _ (fun _ => rfl)
    List.nodup_nil
    (show (["performanceMetrics", "graphics"] : List String).Nodup by decide +kernel) (show (0 : Nat) ≤ 1 by decide)
instance : XNamed X.mlQuantitativeAnalysis := xstruct_named X.mlQuantitativeAnalysisFields _ _

instance : XFieldsLawful X.mlModelCardFields := by unfold X.mlModelCardFields; infer_instance
instance : XLawful X.mlModelCard :=
  xstruct_lawful X.mlModelCardFields _ _ (fun _ => rfl)
    (show (["bom-ref"] : List String).Nodup by decide +kernel)
    (show (["modelParameters", "quantitativeAnalysis", "considerations"] : List String).Nodup by decide +kernel) (show (0 : Nat) ≤ 1 by decide)
instance : XNamed X.mlModelCard := xstruct_named X.mlModelCardFields _ _

instance : XFieldsLawful X.identifiableActionFields := by unfold X.identifiableActionFields; infer_instance
instance : XLawful X.identifiableAction :=
  xstruct_lawful X.identifiableActionFields _ _ (fun _ => rfl)
    List.nodup_nil
    (show (["timestamp", "name", "email"] : List String).Nodup by decide +kernel) (show (0 : Nat) ≤ 1 by decide)
instance : XNamed X.identifiableAction := xstruct_named X.identifiableActionFields _ _

instance : XFieldsLawful X.commitFields := by unfold X.commitFields; infer_instance
instance : XLawful X.commit :=
  xstruct_lawful X.commitFields _ _ (fun _ => rfl)
    List.nodup_nil
    (show (["uid", "url", "author", "committer", "message"] : List String).Nodup by decide +kernel) (show (0 : Nat) ≤ 1 by decide)
instance : XNamed X.commit := xstruct_named X.commitFields _ _

instance : XFieldsLawful X.diffFields := by unfold X.diffFields; infer_instance
instance : XLawful X.diff :=
  xstruct_lawful X.diffFields _ _ (fun _ => rfl)
    List.nodup_nil
    (show (["text", "url"] : List String).Nodup by decide +kernel) (show (0 : Nat) ≤ 1 by decide)
instance : XNamed X.diff := xstruct_named X.diffFields _ _

instance : XFieldsLawful X.sourceFields := by unfold X.sourceFields; infer_instance
instance : XLawful X.source :=
  xstruct_lawful X.sourceFields _ _ (fun _ => rfl)
    List.nodup_nil
    (show (["name", "url"] : List String).Nodup by decide +kernel) (show (0 : Nat) ≤ 1 by decide)
instance : XNamed X.source := xstruct_named X.sourceFields _ _

instance : XFieldsLawful X.issueFields := by unfold X.issueFields; infer_instance
instance : XLawful X.issue :=
  xstruct_lawful X.issueFields _ _ (fun _ => rfl)
    (show (["type"] : List String).Nodup by decide +kernel)
    (show (["id", "name", "description", "source", "references"] : List String).Nodup by decide +kernel) (show (0 : Nat) ≤ 1 by decide)
instance : XNamed X.issue := xstruct_named X.issueFields _ _

instance : XFieldsLawful X.patchFields := by unfold X.patchFields; infer_instance
instance : XLawful X.patch :=
  xstruct_lawful X.patchFields _ _ (fun _ => rfl)
    (show (["type"] : List String).Nodup by decide +kernel)
    (show (["diff", "resolves"] : List String).Nodup by decide +kernel) (show (0 : Nat) ≤ 1 by decide)
instance : XNamed X.patch := xstruct_named X.patchFields _ _

instance (C : XCodec Component) [XLawful C] : XFieldsLawful (X.pedigreeFields C) := by unfold X.pedigreeFields; infer_instance
instance (C : XCodec Component) [XLawful C] : XLawful (X.pedigree C) :=
  xstruct_lawful (X.pedigreeFields C) _ _ (fun _ => rfl)
    List.nodup_nil
    (show (["ancestors", "descendants", "variants", "commits", "patches", "notes"] : List String).Nodup by decide +kernel) (show (0 : Nat) ≤ 1 by decide)
instance (C : XCodec Component) : XNamed (X.pedigree C) := xstruct_named (X.pedigreeFields C) _ _

instance : XFieldsLawful X.noteFields := by unfold X.noteFields; infer_instance
instance : XLawful X.note :=
  xstruct_lawful X.noteFields _ _ (fun _ => rfl)
    List.nodup_nil
    (show (["locale", "text"] : List String).Nodup by decide +kernel) (show (0 : Nat) ≤ 1 by decide)
instance : XNamed X.note := xstruct_named X.noteFields _ _

instance : XFieldsLawful X.releaseNotesFields := by unfold X.releaseNotesFields; infer_instance
instance : XLawful X.releaseNotes :=
  xstruct_lawful X.releaseNotesFields _ _ (fun _ => rfl)
    List.nodup_nil
    (show (["type", "title", "featuredImage", "socialImage", "description", "timestamp", "aliases", "tags", "resolves", "notes", "properties"] : List String).Nodup by decide +kernel) (show (0 : Nat) ≤ 1 by decide)
instance : XNamed X.releaseNotes := xstruct_named X.releaseNotesFields _ _

instance : XFieldsLawful X.swidFields := by unfold X.swidFields; infer_instance
instance : XLawful X.swid :=
  xstruct_lawful X.swidFields _ _ (fun _ => rfl)
    (show (["url", "tagId", "name", "version", "tagVersion", "patch"] : List String).Nodup by decide +kernel)
    (show (["text"] : List String).Nodup by decide +kernel) (show (0 : Nat) ≤ 1 by decide)
instance : XNamed X.swid := xstruct_named X.swidFields _ _

instance : XLawful X.asserterChoice where
  round n ac x g h := by
    have hz : X.asserterChoiceRaw.zero = (none, none, none, ()) := rfl
    obtain ⟨o, i, r⟩ := ac
    cases o with
    | some o =>
      cases i with
      | some i => simp [X.asserterChoice] at h
      | none =>
        simp only [X.asserterChoice, XCodec.struct, Option.map_eq_some_iff, Option.some.injEq] at h
        obtain ⟨ks, hk, rfl⟩ := h
        obtain ⟨k₁, k₂, h₁, h₂, rfl⟩ := encKids_elem hk
        simp only [XFields.encKids, Option.some.injEq] at h₂; subst h₂
        simp only [List.append_nil, XFields.encAttrs]
        have hn := XFieldLawful.named (f := XField.ptr "organization" X.organizationalEntity) (some o) k₁ h₁
        have hr := XFieldLawful.round (f := XField.ptr "organization" X.organizationalEntity) (some o) k₁
          (fun a ha => g.1 a ha) h₁
        simp only [X.asserterChoice, hz]
        unfold X.asserterChoiceRaw
        rw [dec_own _ _ _ _ _ _ (by simp [XFields.texts]) hn]
        have hr : XField.decAll (XField.ptr "organization" X.organizationalEntity).dec k₁ none = _ := hr
        rw [hr]
        simp [XField.ptr, X.organizationalEntity, XCodec.struct]
    | none =>
      cases i with
      | some i =>
        simp only [X.asserterChoice, XCodec.struct, Option.map_eq_some_iff, Option.some.injEq] at h
        obtain ⟨ks, hk, rfl⟩ := h
        obtain ⟨k₁, k₂, h₁, h₂, rfl⟩ := encKids_elem hk
        simp only [XFields.encKids, Option.some.injEq] at h₂; subst h₂
        simp only [List.append_nil, XFields.encAttrs]
        have hn := XFieldLawful.named (f := XField.ptr "contact" X.organizationalContact) (some i) k₁ h₁
        have hr := XFieldLawful.round (f := XField.ptr "contact" X.organizationalContact) (some i) k₁
          (fun a ha => g.2 a ha) h₁
        simp only [X.asserterChoice, hz]
        unfold X.asserterChoiceRaw
        rw [dec_others]
        case h => exact fun y hy => XField.isElem_ne (hn y hy) (by simp [XField.ptr])
        rw [dec_own _ _ _ _ _ _ (by simp [XFields.texts]) hn]
        have hr : XField.decAll (XField.ptr "contact" X.organizationalContact).dec k₁ none = _ := hr
        rw [hr]
        simp [XField.ptr, X.organizationalContact, XCodec.struct]
      | none =>
        cases r with
        | none => simp [X.asserterChoice] at h
        | some r =>
          simp only [X.asserterChoice, XCodec.struct, Option.map_eq_some_iff, Option.some.injEq] at h
          obtain ⟨ks, hk, rfl⟩ := h
          obtain ⟨k₁, k₂, h₁, h₂, rfl⟩ := encKids_elem hk
          simp only [XFields.encKids, Option.some.injEq] at h₂; subst h₂
          simp only [List.append_nil, XFields.encAttrs]
          have hn := XFieldLawful.named (f := XField.ptr "ref" X.bomReference) (some r) k₁ h₁
          have hr := XFieldLawful.round (f := XField.ptr "ref" X.bomReference) (some r) k₁
            (fun a ha => by simp [X.bomReference, X.fresh, XCodec.struct, X.bomReferenceFields, XFields.good, XText.string]) h₁
          simp only [X.asserterChoice, hz]
          unfold X.asserterChoiceRaw
          rw [dec_others]
          case h => exact fun y hy => XField.isElem_ne (hn y hy) (by simp [XField.ptr])
          rw [dec_others]
          case h => exact fun y hy => XField.isElem_ne (hn y hy) (by simp [XField.ptr])
          rw [dec_own _ _ _ _ _ _ (by simp [XFields.texts]) hn]
          have hr : XField.decAll (XField.ptr "ref" X.bomReference).dec k₁ none = _ := hr
          rw [hr]
          simp [XField.ptr, X.bomReference, X.fresh, XCodec.struct]
  named n ac x h := by
    obtain ⟨_ | o, _ | i, _ | r⟩ := ac <;>
    simp only [X.asserterChoice, XCodec.struct, reduceCtorEq, Option.map_eq_some_iff, Option.some.injEq] at h <;>
    · obtain ⟨ks, -, rfl⟩ := h
      simp [Xml.isElem, X.asserterChoice]
  writes n ac o h := by
    obtain ⟨_ | o, _ | i, _ | r⟩ := ac <;>
    simp only [X.asserterChoice, XCodec.struct, reduceCtorEq, Option.map_eq_some_iff, Option.some.injEq] at h <;>
    first
    | (subst h; rfl)
    | (obtain ⟨ks, -, rfl⟩ := h; rfl)
instance : XNamed X.asserterChoice := ⟨fun _ => rfl⟩

instance : XFieldsLawful X.patentAssertionFields := by unfold X.patentAssertionFields; infer_instance
instance : XLawful X.patentAssertion :=
  xstruct_lawful X.patentAssertionFields _ _ (fun _ => rfl)
    (show (["bom-ref"] : List String).Nodup by decide +kernel)
    (show (["patentRefs", "assertionType", "asserter", "notes"] : List String).Nodup by decide +kernel) (show (0 : Nat) ≤ 1 by decide)
instance : XNamed X.patentAssertion := xstruct_named X.patentAssertionFields _ _

instance (C : XCodec Component) [XLawful C] : XFieldsLawful (X.componentFields C) := by unfold X.componentFields; infer_instance
instance (C : XCodec Component) [XLawful C] : XLawful (X.componentWith C) :=
  xstruct_lawful (X.componentFields C) _ _ (fun _ => rfl)
    (show (["bom-ref", "mime-type", "type"] : List String).Nodup by decide +kernel)
    (show (["supplier", "manufacturer", "author", "authors", "publisher", "group", "name", "version", "description", "scope", "hashes", "licenses", "copyright", "cpe", "purl", "omniborId", "swhid", "swid", "modified", "pedigree", "externalReferences", "properties", "components", "evidence", "releaseNotes", "modelCard", "data", "cryptoProperties", "tags", "isExternal", "patentAssertions", "versionRange"] : List String).Nodup by decide +kernel) (show (0 : Nat) ≤ 1 by decide)
instance (C : XCodec Component) : XNamed (X.componentWith C) := xstruct_named (X.componentFields C) _ _

theorem xpedigree_sameAt {C D : XCodec Component} {p : Pedigree Component} (hr : C.rename = D.rename)
    (h1 : ∀ c ∈ p.ancestors.elems, XSameAt C D c) (h2 : ∀ c ∈ p.descendants.elems, XSameAt C D c)
    (h3 : ∀ c ∈ p.variants.elems, XSameAt C D c) : XSameAt (X.pedigree C) (X.pedigree D) p := by
  refine XSameAt.struct ?_
  unfold X.pedigreeFields
  refine XSameFields.elem (XSameField.nlist hr h1) ?_
  refine XSameFields.elem (XSameField.nlist hr h2) ?_
  refine XSameFields.elem (XSameField.nlist hr h3) ?_
  refine XSameFields.rest ?_
  refine XSameFields.rest ?_
  refine XSameFields.rest ?_
  exact XSameFields.refl _ _

theorem xcomponent_sameAt {C D : XCodec Component} {c : Component} (hr : C.rename = D.rename)
    (h1 : ∀ p ∈ c.pedigree, XSameAt (X.pedigree C) (X.pedigree D) p)
    (h2 : ∀ x ∈ c.components.elems, XSameAt C D x) : XSameAt (X.componentWith C) (X.componentWith D) c := by
  refine XSameAt.struct ?_
  unfold X.componentFields
  refine XSameFields.attr ?_
  refine XSameFields.attr ?_
  refine XSameFields.attr ?_
  refine XSameFields.rest ?_
  refine XSameFields.rest ?_
  refine XSameFields.rest ?_
  refine XSameFields.rest ?_
  refine XSameFields.rest ?_
  refine XSameFields.rest ?_
  refine XSameFields.rest ?_
  refine XSameFields.rest ?_
  refine XSameFields.rest ?_
  refine XSameFields.rest ?_
  refine XSameFields.rest ?_
  refine XSameFields.rest ?_
  refine XSameFields.rest ?_
  refine XSameFields.rest ?_
  refine XSameFields.rest ?_
  refine XSameFields.rest ?_
  refine XSameFields.rest ?_
  refine XSameFields.rest ?_
  refine XSameFields.rest ?_
  refine XSameFields.elem (XSameField.ptr h1) ?_
  refine XSameFields.rest ?_
  refine XSameFields.rest ?_
  refine XSameFields.elem (XSameField.nlist hr h2) ?_
  refine XSameFields.rest ?_
  refine XSameFields.rest ?_
  refine XSameFields.rest ?_
  refine XSameFields.rest ?_
  refine XSameFields.rest ?_
  refine XSameFields.rest ?_
  refine XSameFields.rest ?_
  refine XSameFields.rest ?_
  refine XSameFields.rest ?_
  refine XSameFields.skip ?_
  exact XSameFields.refl _ _

theorem xpedigree_sameDec {C D : XCodec Component} {n : Nat} (h : XSameDec n C D) :
    XSameDec (n + 1) (X.pedigree C) (X.pedigree D) := by
  refine XSameDec.struct ?_
  unfold X.pedigreeFields
  refine XSameSet.elem (XSameFieldDec.nlist h) ?_
  refine XSameSet.elem (XSameFieldDec.nlist h) ?_
  refine XSameSet.elem (XSameFieldDec.nlist h) ?_
  refine XSameSet.rest ?_
  refine XSameSet.rest ?_
  refine XSameSet.rest ?_
  exact XSameSet.refl _ _

theorem xcomponent_sameDec {C D : XCodec Component} {n : Nat} (h : XSameDec n C D) :
    XSameDec (n + 1) (X.componentWith C) (X.componentWith D) := by
  refine XSameDec.struct ?_
  unfold X.componentFields
  refine XSameSet.attr ?_
  refine XSameSet.attr ?_
  refine XSameSet.attr ?_
  refine XSameSet.rest ?_
  refine XSameSet.rest ?_
  refine XSameSet.rest ?_
  refine XSameSet.rest ?_
  refine XSameSet.rest ?_
  refine XSameSet.rest ?_
  refine XSameSet.rest ?_
  refine XSameSet.rest ?_
  refine XSameSet.rest ?_
  refine XSameSet.rest ?_
  refine XSameSet.rest ?_
  refine XSameSet.rest ?_
  refine XSameSet.rest ?_
  refine XSameSet.rest ?_
  refine XSameSet.rest ?_
  refine XSameSet.rest ?_
  refine XSameSet.rest ?_
  refine XSameSet.rest ?_
  refine XSameSet.rest ?_
  refine XSameSet.elem (XSameFieldDec.ptr ((xpedigree_sameDec h).mono (Nat.le_succ _))) ?_
  refine XSameSet.rest ?_
  refine XSameSet.rest ?_
  refine XSameSet.elem (XSameFieldDec.nlist h) ?_
  refine XSameSet.rest ?_
  refine XSameSet.rest ?_
  refine XSameSet.rest ?_
  refine XSameSet.rest ?_
  refine XSameSet.rest ?_
  refine XSameSet.rest ?_
  refine XSameSet.rest ?_
  refine XSameSet.rest ?_
  refine XSameSet.rest ?_
  refine XSameSet.skip ?_
  exact XSameSet.refl _ _

theorem xcomponentN_zero (n : Nat) : (X.componentN n).zero = {} := by
  cases n <;> rfl

theorem xcomponentN_rename (n : Nat) : (X.componentN n).rename = id := by
  cases n <;> rfl

theorem xcomponentN_sameAt : ∀ (m n : Nat) (c : Component), c.height ≤ m → c.height ≤ n →
    XSameAt (X.componentN m) (X.componentN n) c := by
  intro m
  induction m with
  | zero => intro n c h _; rw [Component.height_eq] at h; omega
  | succ m ih =>
    intro n c hm hn
    rw [Component.height_eq] at hm hn
    cases n with
    | zero => omega
    | succ n =>
      have hr : (X.componentN m).rename = (X.componentN n).rename := by simp only [xcomponentN_rename]
      have hm : max (heightComponents c.components) (heightPedigreeOpt c.pedigree) ≤ m := by omega
      have hn : max (heightComponents c.components) (heightPedigreeOpt c.pedigree) ≤ n := by omega
      rw [Nat.max_le, heightComponents_le] at hm hn
      refine xcomponent_sameAt hr ?_ (fun x hx => ih n x (hm.1 x hx) (hn.1 x hx))
      intro p hp
      have hp : c.pedigree = some p := hp
      have hm := hm.2
      have hn := hn.2
      simp only [hp, heightPedigreeOpt, heightPedigree_eq, Nat.max_le, heightComponents_le] at hm hn
      exact xpedigree_sameAt hr (fun x hx => ih n x (hm.1 x hx) (hn.1 x hx))
        (fun x hx => ih n x (hm.2.1 x hx) (hn.2.1 x hx)) (fun x hx => ih n x (hm.2.2 x hx) (hn.2.2 x hx))

theorem xcomponentN_sameDec : ∀ (m n : Nat), XSameDec (min m n) (X.componentN m) (X.componentN n)
  | 0, n => ⟨by rw [xcomponentN_zero, xcomponentN_zero], fun j a h => by simp at h⟩
  | m + 1, 0 => ⟨by rw [xcomponentN_zero, xcomponentN_zero], fun j a h => by simp at h⟩
  | m + 1, n + 1 => by
    have := xcomponent_sameDec (xcomponentN_sameDec m n)
    rw [Nat.add_min_add_right]; exact this

theorem xcomponent_knotted : XKnotted ({} : Component) X.componentN Component.height where
  lawful n := by
    induction n with
    | zero => exact inferInstanceAs (XLawful (X.bottom _))
    | succ n ih => exact inferInstanceAs (XLawful (X.componentWith (X.componentN n)))
  zero := xcomponentN_zero
  writes n a := by cases n <;> rfl
  rename := xcomponentN_rename
  enc := xcomponentN_sameAt
  dec m n j a hm hn := (xcomponentN_sameDec m n).dec j a (by omega)

instance : XLawful X.component := xknot_lawful xcomponent_knotted
instance : XNamed X.component := ⟨fun _ => rfl⟩

/-- `X.component` satisfies the recursive equation of the type `Component`. -/
theorem xcomponent_sameAt_self (c : Component) : XSameAt X.component (X.componentWith X.component) c := by
  let m := c.height
  have key : ∀ x : Component, x.height ≤ m → XSameAt (X.componentN m) X.component x := fun x hx =>
    let h := xcomponentN_sameAt m x.height x hx (Nat.le_refl _)
    ⟨h.enc, h.norm, h.good, by cases m <;> rfl, by rw [xcomponent_knotted.writes]; rfl,
      xcomponentN_rename m⟩
  have h1 : XSameAt X.component (X.componentN (m + 1)) c :=
    let h := xcomponentN_sameAt c.height (m + 1) c (Nat.le_refl _) (Nat.le_succ _)
    ⟨h.enc, h.norm, h.good, rfl, rfl, rfl⟩
  have h2 : XSameAt (X.componentN (m + 1)) (X.componentWith X.component) c := by
    have hm : max (heightComponents c.components) (heightPedigreeOpt c.pedigree) ≤ m := by
      have := Component.height_eq c; omega
    rw [Nat.max_le, heightComponents_le] at hm
    have hr : (X.componentN m).rename = X.component.rename := xcomponentN_rename m
    refine xcomponent_sameAt hr ?_ (fun x hx => key x (hm.1 x hx))
    intro p hp
    have hp : c.pedigree = some p := hp
    have hm := hm.2
    simp only [hp, heightPedigreeOpt, heightPedigree_eq, Nat.max_le, heightComponents_le] at hm
    exact xpedigree_sameAt hr (fun x hx => key x (hm.1 x hx)) (fun x hx => key x (hm.2.1 x hx))
      (fun x hx => key x (hm.2.2 x hx))
  exact ⟨fun n => (h1.enc n).trans (h2.enc n), h1.norm.trans h2.norm, h1.good.trans h2.good,
    h1.empty.trans h2.empty, h1.writes.trans h2.writes, h1.rename.trans h2.rename⟩

/-- Encoding satisfies the recursive equation of the type `Component`. -/
theorem xcomponent_enc (n : String) (c : Component) :
    X.component.enc n c = (X.componentWith X.component).enc n c := (xcomponent_sameAt_self c).enc n

/-- Decoding satisfies the recursive equation of the type `Component`. -/
theorem xcomponent_dec (x : Xml) (a : Component) :
    X.component.dec x a = (X.componentWith X.component).dec x a := by
  have h : XSameDec x.depth (X.componentN x.depth) X.component :=
    ⟨xcomponentN_zero _, fun y b hy => by
      have := (xcomponentN_sameDec x.depth (y.depth + 1)).dec y b (by omega)
      exact this⟩
  exact (xcomponent_sameDec h).dec x a (Nat.lt_succ_self _)

theorem urlsElem_step {n : String} {us : PSlice String} {step : Xml → DataClassification → Option DataClassification}
    {set : DataClassification → PSlice String → DataClassification} (dc : DataClassification)
    (hs : ∀ ks vs, X.urls n ks = some vs → step (.elem n [] ks) dc = some (if vs ≠ [] then set dc (.list vs) else dc))
    (hz : set dc .nil = dc) :
    XField.decAll step (X.urlsElem n us) dc = some (set dc (XField.ofList (us.elems.map sanitize))) := by
  cases hu : us.elems with
  | nil => simp [X.urlsElem, hu, XField.decAll, XField.ofList, hz]
  | cons u vs =>
    have := hs _ _ (urls_round n (u :: vs))
    simp only [X.urlsElem, hu, XField.decAll_single, this]
    simp [XField.ofList]

instance : XLawful X.dataClassification where
  round n dc x g h := by
    simp only [X.dataClassification] at h g ⊢
    split at h
    · cases h
    · rename_i gs hgs
      simp only [Option.some.injEq] at h; subst h
      simp only [Xml.name, Xml.kids, Xml.attrs, ne_eq, not_true, if_false]
      have hgn := XFieldLawful.named (f := XField.ptr "governance" X.dataGovernance) dc.governance gs hgs
      have hgr := XFieldLawful.round (f := XField.ptr "governance" X.dataGovernance) dc.governance gs g hgs
      rw [spliced_known]
      · simp only
        have ha1 : X.lastAttr "name" (X.attrUnlessEmpty "name" dc.name ++ X.attrUnlessEmpty "description" dc.description) "" =
            sanitize dc.name := by
          by_cases h1 : dc.name = "" <;> by_cases h2 : dc.description = "" <;>
            simp [X.attrUnlessEmpty, X.lastAttr, h1, h2]
        have ha2 : X.lastAttr "description" (X.attrUnlessEmpty "name" dc.name ++ X.attrUnlessEmpty "description" dc.description) "" =
            sanitize dc.description := by
          by_cases h1 : dc.name = "" <;> by_cases h2 : dc.description = "" <;>
            simp [X.attrUnlessEmpty, X.lastAttr, h1, h2]
        rw [ha1, ha2]
        rw [XField.decAll_append, XField.decAll_append, XField.decAll_append]
        have hc : XField.decAll X.dataClassificationStep
            (if dc.classification ≠ "" ∨ dc.flow ≠ "" then
              [.elem "classification" (X.attrUnlessEmpty "flow" dc.flow) (textKids (sanitize dc.classification))]
            else []) { name := sanitize dc.name, description := sanitize dc.description } =
            some { name := sanitize dc.name, description := sanitize dc.description,
                   flow := sanitize dc.flow, classification := sanitize dc.classification } := by
          split
          · have : X.lastAttr "flow" (X.attrUnlessEmpty "flow" dc.flow) "" = sanitize dc.flow := lastAttr_unlessEmpty _ _
            simp only [XField.decAll_single, X.dataClassificationStep, if_true, this, textOf_textKids]
          · rename_i hne
            simp only [ne_eq, not_or, Classical.not_not] at hne
            simp [XField.decAll, hne.1, hne.2]
        simp only [ne_eq] at hc
        rw [hc]
        simp only [Option.bind_some]
        have hg : ∀ (d : DataClassification), d.governance = none →
            XField.decAll X.dataClassificationStep gs d = some { d with governance := dc.governance.map X.dataGovernance.norm } := by
          intro d hd
          cases hdg : dc.governance with
          | none =>
            rw [hdg] at hgs
            simp only [XField.ptr, Option.some.injEq] at hgs; subst hgs
            simp only [XField.decAll, Option.map_none]
            rw [← hd]
          | some gv =>
            rw [hdg] at hgs
            simp only [XField.ptr] at hgs
            obtain ⟨o, ho, rfl⟩ := Option.map_eq_some_iff.1 hgs
            rcases XField.enc_cases ho with ⟨hw, -⟩ | ⟨-, x, rfl, hx⟩
            · simp [X.dataGovernance, XCodec.struct] at hw
            · have hr := XLawful.round "governance" gv x (g gv hdg) ho
              have hn : X.dataGovernance.rename "governance" = "governance" := rfl
              rw [hn] at hx
              obtain ⟨as, ks, rfl⟩ := Xml.isElem_elim hx
              have h1 : ("governance" : String) ≠ "classification" := by decide
              simp only [Option.toList_some, XField.decAll_single, X.dataClassificationStep, if_neg h1, if_true, hr,
                Option.map_some]
        rw [hg _ rfl]
        simp only [Option.bind_some]
        rw [urlsElem_step (set := fun d us => { d with source := us }) _ (fun ks vs hv => by
          have h1 : ("source" : String) ≠ "classification" := by decide
          have h2 : ("source" : String) ≠ "governance" := by decide
          simp only [X.dataClassificationStep, if_neg h1, if_neg h2, if_true, hv, Option.map_some]) rfl]
        simp only [Option.bind_some]
        rw [urlsElem_step (set := fun d us => { d with destination := us }) _ (fun ks vs hv => by
          have h1 : ("destination" : String) ≠ "classification" := by decide
          have h2 : ("destination" : String) ≠ "governance" := by decide
          have h3 : ("destination" : String) ≠ "source" := by decide
          simp only [X.dataClassificationStep, if_neg h1, if_neg h2, if_neg h3, if_true, hv, Option.map_some]) rfl]
      · intro y hy
        have hurl : ∀ m us, y ∈ X.urlsElem m us → y.isElem m = true := by
          intro m us hm
          unfold X.urlsElem at hm
          split at hm
          · simp at hm
          · simp at hm; subst hm; simp [Xml.isElem]
        simp only [List.mem_append] at hy
        rcases hy with ((hy | hy) | hy) | hy
        · split at hy
          · simp at hy; subst hy; exact ⟨"classification", by simp, by simp [Xml.isElem]⟩
          · simp at hy
        · exact ⟨"governance", by simp, hgn y hy⟩
        · exact ⟨"source", by simp, hurl _ _ hy⟩
        · exact ⟨"destination", by simp, hurl _ _ hy⟩
  named n dc x h := by
    simp only [X.dataClassification] at h ⊢
    split at h
    · cases h
    · simp only [Option.some.injEq] at h; subst h; simp [Xml.isElem]
  writes n dc o h := by
    simp only [X.dataClassification] at h ⊢
    split at h
    · cases h
    · simp only [Option.some.injEq] at h; subst h; rfl

instance (C : XCodec Service) [XLawful C] : XFieldsLawful (X.serviceFields C) := by unfold X.serviceFields; infer_instance
instance (C : XCodec Service) [XLawful C] : XLawful (X.serviceWith C) :=
  xstruct_lawful (X.serviceFields C) _ _ (fun _ => rfl)
    (show (["bom-ref"] : List String).Nodup by decide +kernel)
    (show (["provider", "group", "name", "version", "description", "endpoints", "authenticated", "x-trust-boundary", "data", "licenses", "externalReferences", "properties", "services", "releaseNotes", "tags", "trustZone", "patentAssertions"] : List String).Nodup by decide +kernel) (show (0 : Nat) ≤ 1 by decide)
instance (C : XCodec Service) : XNamed (X.serviceWith C) := xstruct_named (X.serviceFields C) _ _

theorem xservice_sameAt {C D : XCodec Service} {c : Service} (hr : C.rename = D.rename)
    (h : ∀ x ∈ c.services.elems, XSameAt C D x) : XSameAt (X.serviceWith C) (X.serviceWith D) c := by
  refine XSameAt.struct ?_
  unfold X.serviceFields
  refine XSameFields.attr ?_
  refine XSameFields.rest ?_
  refine XSameFields.rest ?_
  refine XSameFields.rest ?_
  refine XSameFields.rest ?_
  refine XSameFields.rest ?_
  refine XSameFields.rest ?_
  refine XSameFields.rest ?_
  refine XSameFields.rest ?_
  refine XSameFields.rest ?_
  refine XSameFields.rest ?_
  refine XSameFields.rest ?_
  refine XSameFields.rest ?_
  refine XSameFields.elem (XSameField.nlist hr h) ?_
  refine XSameFields.rest ?_
  refine XSameFields.rest ?_
  refine XSameFields.rest ?_
  refine XSameFields.rest ?_
  refine XSameFields.skip ?_
  exact XSameFields.refl _ _

theorem xservice_sameDec {C D : XCodec Service} {n : Nat} (h : XSameDec n C D) :
    XSameDec (n + 1) (X.serviceWith C) (X.serviceWith D) := by
  refine XSameDec.struct ?_
  unfold X.serviceFields
  refine XSameSet.attr ?_
  refine XSameSet.rest ?_
  refine XSameSet.rest ?_
  refine XSameSet.rest ?_
  refine XSameSet.rest ?_
  refine XSameSet.rest ?_
  refine XSameSet.rest ?_
  refine XSameSet.rest ?_
  refine XSameSet.rest ?_
  refine XSameSet.rest ?_
  refine XSameSet.rest ?_
  refine XSameSet.rest ?_
  refine XSameSet.rest ?_
  refine XSameSet.elem (XSameFieldDec.nlist h) ?_
  refine XSameSet.rest ?_
  refine XSameSet.rest ?_
  refine XSameSet.rest ?_
  refine XSameSet.rest ?_
  refine XSameSet.skip ?_
  exact XSameSet.refl _ _

theorem xserviceN_zero (n : Nat) : (X.serviceN n).zero = {} := by
  cases n <;> rfl

theorem xserviceN_rename (n : Nat) : (X.serviceN n).rename = id := by
  cases n <;> rfl

theorem xserviceN_sameAt : ∀ (m n : Nat) (c : Service), c.height ≤ m → c.height ≤ n →
    XSameAt (X.serviceN m) (X.serviceN n) c := by
  intro m
  induction m with
  | zero => intro n c h _; rw [Service.height_eq] at h; omega
  | succ m ih =>
    intro n c hm hn
    rw [Service.height_eq] at hm hn
    cases n with
    | zero => omega
    | succ n =>
      have hr : (X.serviceN m).rename = (X.serviceN n).rename := by simp only [xserviceN_rename]
      have hm : heightServices c.services ≤ m := by omega
      have hn : heightServices c.services ≤ n := by omega
      rw [heightServices_le] at hm hn
      exact xservice_sameAt hr (fun x hx => ih n x (hm x hx) (hn x hx))

theorem xserviceN_sameDec : ∀ (m n : Nat), XSameDec (min m n) (X.serviceN m) (X.serviceN n)
  | 0, n => ⟨by rw [xserviceN_zero, xserviceN_zero], fun j a h => by simp at h⟩
  | m + 1, 0 => ⟨by rw [xserviceN_zero, xserviceN_zero], fun j a h => by simp at h⟩
  | m + 1, n + 1 => by
    have := xservice_sameDec (xserviceN_sameDec m n)
    rw [Nat.add_min_add_right]; exact this

theorem xservice_knotted : XKnotted ({} : Service) X.serviceN Service.height where
  lawful n := by
    induction n with
    | zero => exact inferInstanceAs (XLawful (X.bottom _))
    | succ n ih => exact inferInstanceAs (XLawful (X.serviceWith (X.serviceN n)))
  zero := xserviceN_zero
  writes n a := by cases n <;> rfl
  rename := xserviceN_rename
  enc := xserviceN_sameAt
  dec m n j a hm hn := (xserviceN_sameDec m n).dec j a (by omega)

instance : XLawful X.service := xknot_lawful xservice_knotted
instance : XNamed X.service := ⟨fun _ => rfl⟩

/-- `X.service` satisfies the recursive equation of the type `Service`. -/
theorem xservice_sameAt_self (c : Service) : XSameAt X.service (X.serviceWith X.service) c := by
  let m := c.height
  have key : ∀ x : Service, x.height ≤ m → XSameAt (X.serviceN m) X.service x := fun x hx =>
    let h := xserviceN_sameAt m x.height x hx (Nat.le_refl _)
    ⟨h.enc, h.norm, h.good, by cases m <;> rfl, by rw [xservice_knotted.writes]; rfl, xserviceN_rename m⟩
  have h1 : XSameAt X.service (X.serviceN (m + 1)) c :=
    let h := xserviceN_sameAt c.height (m + 1) c (Nat.le_refl _) (Nat.le_succ _)
    ⟨h.enc, h.norm, h.good, rfl, rfl, rfl⟩
  have h2 : XSameAt (X.serviceN (m + 1)) (X.serviceWith X.service) c := by
    have hm : heightServices c.services ≤ m := by
      have := Service.height_eq c; omega
    rw [heightServices_le] at hm
    exact xservice_sameAt (xserviceN_rename m) (fun x hx => key x (hm x hx))
  exact ⟨fun n => (h1.enc n).trans (h2.enc n), h1.norm.trans h2.norm, h1.good.trans h2.good,
    h1.empty.trans h2.empty, h1.writes.trans h2.writes, h1.rename.trans h2.rename⟩

/-- Encoding satisfies the recursive equation of the type `Service`. -/
theorem xservice_enc (n : String) (c : Service) :
    X.service.enc n c = (X.serviceWith X.service).enc n c := (xservice_sameAt_self c).enc n

/-- Decoding satisfies the recursive equation of the type `Service`. -/
theorem xservice_dec (x : Xml) (a : Service) :
    X.service.dec x a = (X.serviceWith X.service).dec x a := by
  have h : XSameDec x.depth (X.serviceN x.depth) X.service :=
    ⟨xserviceN_zero _, fun y b hy => by
      have := (xserviceN_sameDec x.depth (y.depth + 1)).dec y b (by omega)
      exact this⟩
  exact (xservice_sameDec h).dec x a (Nat.lt_succ_self _)

instance : XFieldsLawful X.annotatorFields := by unfold X.annotatorFields; infer_instance
instance : XLawful X.annotator :=
  xstruct_lawful X.annotatorFields _ _ (fun _ => rfl)
    List.nodup_nil
    (show (["organization", "individual", "component", "service"] : List String).Nodup by decide +kernel) (show (0 : Nat) ≤ 1 by decide)
instance : XNamed X.annotator := xstruct_named X.annotatorFields _ _

instance : XFieldsLawful X.annotationFields := by unfold X.annotationFields; infer_instance
instance : XLawful X.annotation :=
  xstruct_lawful X.annotationFields _ _ (fun _ => rfl)
    (show (["bom-ref"] : List String).Nodup by decide +kernel)
    (show (["subjects", "annotator", "timestamp", "text"] : List String).Nodup by decide +kernel) (show (0 : Nat) ≤ 1 by decide)
instance : XNamed X.annotation := xstruct_named X.annotationFields _ _

instance : XFieldsLawful X.assessorFields := by unfold X.assessorFields; infer_instance
instance : XLawful X.assessor :=
  xstruct_lawful X.assessorFields _ _ (fun _ => rfl)
    (show (["bom-ref"] : List String).Nodup by decide +kernel)
    (show (["thirdParty", "organization"] : List String).Nodup by decide +kernel) (show (0 : Nat) ≤ 1 by decide)
instance : XNamed X.assessor := xstruct_named X.assessorFields _ _

instance : XFieldsLawful X.attestationConformanceFields := by unfold X.attestationConformanceFields; infer_instance
instance : XLawful X.attestationConformance :=
  xstruct_lawful X.attestationConformanceFields _ _ (fun _ => rfl)
    List.nodup_nil
    (show (["score", "rationale", "mitigationStrategies"] : List String).Nodup by decide +kernel) (show (0 : Nat) ≤ 1 by decide)
instance : XNamed X.attestationConformance := xstruct_named X.attestationConformanceFields _ _

instance : XFieldsLawful X.attestationConfidenceFields := by unfold X.attestationConfidenceFields; infer_instance
instance : XLawful X.attestationConfidence :=
  xstruct_lawful X.attestationConfidenceFields _ _ (fun _ => rfl)
    List.nodup_nil
    (show (["score", "rationale"] : List String).Nodup by decide +kernel) (show (0 : Nat) ≤ 1 by decide)
instance : XNamed X.attestationConfidence := xstruct_named X.attestationConfidenceFields _ _

instance : XFieldsLawful X.attestationMapFields := by unfold X.attestationMapFields; infer_instance
instance : XLawful X.attestationMap :=
  xstruct_lawful X.attestationMapFields _ _ (fun _ => rfl)
    List.nodup_nil
    (show (["requirement", "claims", "counterClaims", "conformance", "confidence"] : List String).Nodup by decide +kernel) (show (0 : Nat) ≤ 1 by decide)
instance : XNamed X.attestationMap := xstruct_named X.attestationMapFields _ _

instance : XFieldsLawful X.attestationFields := by unfold X.attestationFields; infer_instance
instance : XLawful X.attestation :=
  xstruct_lawful X.attestationFields _ _ (fun _ => rfl)
    List.nodup_nil
    (show (["summary", "assessor", "map"] : List String).Nodup by decide +kernel) (show (0 : Nat) ≤ 1 by decide)
instance : XNamed X.attestation := xstruct_named X.attestationFields _ _

instance : XFieldsLawful X.compositionFields := by unfold X.compositionFields; infer_instance
instance : XLawful X.composition :=
  xstruct_lawful X.compositionFields _ _ (fun _ => rfl)
    (show (["bom-ref"] : List String).Nodup by decide +kernel)
    (show (["aggregate", "assemblies", "dependencies", "vulnerabilities"] : List String).Nodup by decide +kernel) (show (0 : Nat) ≤ 1 by decide)
instance : XNamed X.composition := xstruct_named X.compositionFields _ _

instance : XFieldsLawful X.claimFields := by unfold X.claimFields; infer_instance
instance : XLawful X.claim :=
  xstruct_lawful X.claimFields _ _ (fun _ => rfl)
    (show (["bom-ref"] : List String).Nodup by decide +kernel)
    (show (["target", "predicate", "mitigationStrategies", "reasoning", "evidence", "counterEvidence", "externalReferences"] : List String).Nodup by decide +kernel) (show (0 : Nat) ≤ 1 by decide)
instance : XNamed X.claim := xstruct_named X.claimFields _ _

instance : XFieldsLawful X.evidenceDataContentsFields := by unfold X.evidenceDataContentsFields; infer_instance
instance : XLawful X.evidenceDataContents :=
  xstruct_lawful X.evidenceDataContentsFields _ _ (fun _ => rfl)
    List.nodup_nil
    (show (["attachment", "url"] : List String).Nodup by decide +kernel) (show (0 : Nat) ≤ 1 by decide)
instance : XNamed X.evidenceDataContents := xstruct_named X.evidenceDataContentsFields _ _

instance : XFieldsLawful X.evidenceDataFields := by unfold X.evidenceDataFields; infer_instance
instance : XLawful X.evidenceData :=
  xstruct_lawful X.evidenceDataFields _ _ (fun _ => rfl)
    List.nodup_nil
    (show (["name", "contents", "data", "sensitiveData", "governance"] : List String).Nodup by decide +kernel) (show (0 : Nat) ≤ 1 by decide)
instance : XNamed X.evidenceData := xstruct_named X.evidenceDataFields _ _

instance : XFieldsLawful X.declarationEvidenceFields := by unfold X.declarationEvidenceFields; infer_instance
instance : XLawful X.declarationEvidence :=
  xstruct_lawful X.declarationEvidenceFields _ _ (fun _ => rfl)
    (show (["bom-ref"] : List String).Nodup by decide +kernel)
    (show (["propertyName", "description", "data", "created", "expires", "author", "reviewer"] : List String).Nodup by decide +kernel) (show (0 : Nat) ≤ 1 by decide)
instance : XNamed X.declarationEvidence := xstruct_named X.declarationEvidenceFields _ _

instance : XFieldsLawful X.targetsFields := by unfold X.targetsFields; infer_instance
instance : XLawful X.targets :=
  xstruct_lawful X.targetsFields _ _ (fun _ => rfl)
    List.nodup_nil
    (show (["organizations", "components", "services"] : List String).Nodup by decide +kernel) (show (0 : Nat) ≤ 1 by decide)
instance : XNamed X.targets := xstruct_named X.targetsFields _ _

instance : XFieldsLawful X.signatoryFields := by unfold X.signatoryFields; infer_instance
instance : XLawful X.signatory :=
  xstruct_lawful X.signatoryFields _ _ (fun _ => rfl)
    List.nodup_nil
    (show (["name", "role", "organization", "externalReference"] : List String).Nodup by decide +kernel) (show (0 : Nat) ≤ 1 by decide)
instance : XNamed X.signatory := xstruct_named X.signatoryFields _ _

instance : XFieldsLawful X.affirmationFields := by unfold X.affirmationFields; infer_instance
instance : XLawful X.affirmation :=
  xstruct_lawful X.affirmationFields _ _ (fun _ => rfl)
    List.nodup_nil
    (show (["statement", "signatories"] : List String).Nodup by decide +kernel) (show (0 : Nat) ≤ 1 by decide)
instance : XNamed X.affirmation := xstruct_named X.affirmationFields _ _

instance : XFieldsLawful X.declarationsFields := by unfold X.declarationsFields; infer_instance
instance : XLawful X.declarations :=
  xstruct_lawful X.declarationsFields _ _ (fun _ => rfl)
    List.nodup_nil
    (show (["assessors", "attestations", "claims", "evidence", "targets", "affirmation"] : List String).Nodup by decide +kernel) (show (0 : Nat) ≤ 1 by decide)
instance : XNamed X.declarations := xstruct_named X.declarationsFields _ _

instance : XFieldsLawful X.priorityApplicationFields := by unfold X.priorityApplicationFields; infer_instance
instance : XLawful X.priorityApplication :=
  xstruct_lawful X.priorityApplicationFields _ _ (fun _ => rfl)
    List.nodup_nil
    (show (["applicationNumber", "jurisdiction", "filingDate"] : List String).Nodup by decide +kernel) (show (0 : Nat) ≤ 1 by decide)
instance : XNamed X.priorityApplication := xstruct_named X.priorityApplicationFields _ _

instance : XFieldsLawful X.patentFields := by unfold X.patentFields; infer_instance
instance : XLawful X.patent :=
  xstruct_lawful X.patentFields _ _ (fun _ => rfl)
    (show (["bom-ref"] : List String).Nodup by decide +kernel)
    (show (["patentNumber", "applicationNumber", "jurisdiction", "priorityApplication", "publicationNumber", "title", "abstract", "filingDate", "grantDate", "patentExpirationDate", "patentLegalStatus", "patentAssignee", "externalReferences"] : List String).Nodup by decide +kernel) (show (0 : Nat) ≤ 1 by decide)
instance : XNamed X.patent := xstruct_named X.patentFields _ _

instance : XFieldsLawful X.patentFamilyFields := by unfold X.patentFamilyFields; infer_instance
instance : XLawful X.patentFamily :=
  xstruct_lawful X.patentFamilyFields _ _ (fun _ => rfl)
    (show (["bom-ref"] : List String).Nodup by decide +kernel)
    (show (["familyId", "priorityApplication", "members", "externalReferences"] : List String).Nodup by decide +kernel) (show (0 : Nat) ≤ 1 by decide)
instance : XNamed X.patentFamily := xstruct_named X.patentFamilyFields _ _

instance : XFieldsLawful X.standardRequirementFields := by unfold X.standardRequirementFields; infer_instance
instance : XLawful X.standardRequirement :=
  xstruct_lawful X.standardRequirementFields _ _ (fun _ => rfl)
    (show (["bom-ref"] : List String).Nodup by decide +kernel)
    (show (["identifier", "title", "text", "descriptions", "openCre", "parent", "properties", "externalReferences"] : List String).Nodup by decide +kernel) (show (0 : Nat) ≤ 1 by decide)
instance : XNamed X.standardRequirement := xstruct_named X.standardRequirementFields _ _

instance : XFieldsLawful X.standardLevelFields := by unfold X.standardLevelFields; infer_instance
instance : XLawful X.standardLevel :=
  xstruct_lawful X.standardLevelFields _ _ (fun _ => rfl)
    (show (["bom-ref"] : List String).Nodup by decide +kernel)
    (show (["identifier", "title", "description", "requirements"] : List String).Nodup by decide +kernel) (show (0 : Nat) ≤ 1 by decide)
instance : XNamed X.standardLevel := xstruct_named X.standardLevelFields _ _

instance : XFieldsLawful X.standardDefinitionFields := by unfold X.standardDefinitionFields; infer_instance
instance : XLawful X.standardDefinition :=
  xstruct_lawful X.standardDefinitionFields _ _ (fun _ => rfl)
    (show (["bom-ref"] : List String).Nodup by decide +kernel)
    (show (["name", "version", "description", "owner", "requirements", "levels", "externalReferences"] : List String).Nodup by decide +kernel) (show (0 : Nat) ≤ 1 by decide)
instance : XNamed X.standardDefinition := xstruct_named X.standardDefinitionFields _ _

theorem patentChoice_round (c : PatentChoice) (ks : List Xml)
    (g : (∀ p ∈ c.patent, X.patent.good p) ∧ (∀ f ∈ c.patentFamily, X.patentFamily.good f))
    (h : X.patentChoiceEnc c = some ks) : X.decEach X.patentChoiceDec ks = some (X.patentChoiceNorm c) := by
  obtain ⟨p, f⟩ := c
  cases p with
  | some p =>
    simp only [X.patentChoiceEnc] at h
    obtain ⟨o, ho, rfl⟩ := Option.map_eq_some_iff.1 h
    rcases XField.enc_cases ho with ⟨hw, -⟩ | ⟨-, x, rfl, hx⟩
    · simp [X.patent, XCodec.struct] at hw
    · have hr := XLawful.round "patent" p x (g.1 p rfl) ho
      have hn : X.patent.rename "patent" = "patent" := rfl
      rw [hn] at hx
      obtain ⟨as, ks, rfl⟩ := Xml.isElem_elim hx
      simp only [Option.toList_some, decEach_single, X.patentChoiceNorm]
      simp [X.patentChoiceDec, hr]
  | none =>
    cases f with
    | none =>
      simp only [X.patentChoiceEnc, Option.some.injEq] at h; subst h; rfl
    | some f =>
      simp only [X.patentChoiceEnc] at h
      obtain ⟨o, ho, rfl⟩ := Option.map_eq_some_iff.1 h
      rcases XField.enc_cases ho with ⟨hw, -⟩ | ⟨-, x, rfl, hx⟩
      · simp [X.patentFamily, XCodec.struct] at hw
      · have hr := XLawful.round "patentFamily" f x (g.2 f rfl) ho
        have hn : X.patentFamily.rename "patentFamily" = "patentFamily" := rfl
        rw [hn] at hx
        obtain ⟨as, ks, rfl⟩ := Xml.isElem_elim hx
        simp only [Option.toList_some, decEach_single, X.patentChoiceNorm]
        have h1 : ("patentFamily" : String) ≠ "patent" := by decide
        simp [X.patentChoiceDec, hr]

theorem standard_round (s : StandardDefinition) (ks : List Xml) (g : X.standardDefinition.good s)
    (h : (X.standardDefinition.enc "standard" s).map (·.toList) = some ks) :
    X.decEach X.standardDec ks = some [X.standardDefinition.norm s] := by
  obtain ⟨o, ho, rfl⟩ := Option.map_eq_some_iff.1 h
  rcases XField.enc_cases ho with ⟨hw, -⟩ | ⟨-, x, rfl, hx⟩
  · simp [X.standardDefinition, XCodec.struct] at hw
  · have hr := XLawful.round "standard" s x g ho
    have hn : X.standardDefinition.rename "standard" = "standard" := rfl
    rw [hn] at hx
    obtain ⟨as, ks, rfl⟩ := Xml.isElem_elim hx
    simp only [Option.toList_some, decEach_single]
    simp [X.standardDec, hr]

theorem enclosed_cases {α : Type} {name : String} {f : α → Option (List Xml)} {as : PSlice α} {ks : List Xml}
    (h : X.enclosed name f as = some ks) :
    (as = .nil ∧ ks = []) ∨ ∃ ks', X.encEach f as.elems = some ks' ∧ ks = [.elem name [] ks'] := by
  cases as <;> simp only [X.enclosed, Option.some.injEq, Option.map_eq_some_iff] at h
  · exact .inl ⟨rfl, h.symm⟩
  · obtain ⟨ks', hk, rfl⟩ := h; exact .inr ⟨ks', hk, rfl⟩
  · obtain ⟨ks', hk, rfl⟩ := h; exact .inr ⟨ks', hk, rfl⟩

theorem standards_step {as : PSlice StandardDefinition} {ks : List Xml} (d : Definitions) (hd : d.standards = .nil)
    (g : ∀ s ∈ as.elems, X.standardDefinition.good s)
    (h : X.enclosed "standards" (fun s => (X.standardDefinition.enc "standard" s).map (·.toList)) as = some ks) :
    XField.decAll X.definitionsStep ks d =
      some { d with standards := XField.ofList (as.elems.map X.standardDefinition.norm) } := by
  rcases enclosed_cases h with ⟨rfl, rfl⟩ | ⟨ks', hk, rfl⟩
  · simp only [PSlice.elems, XField.decAll, List.map_nil, XField.ofList, ← hd]
  · have := each_round standard_round as.elems ks' g hk
    simp only [XField.decAll_single, X.definitionsStep, if_true, this, Option.map_some, Option.some.injEq,
      ← List.map_eq_flatMap]
    cases as.elems.map X.standardDefinition.norm with
    | nil => simp [XField.ofList, ← hd]
    | cons a as => simp [XField.ofList]

theorem patents_step {as : PSlice PatentChoice} {ks : List Xml} (d : Definitions) (hd : d.patents = .nil)
    (g : ∀ c ∈ as.elems, (∀ p ∈ c.patent, X.patent.good p) ∧ (∀ f ∈ c.patentFamily, X.patentFamily.good f))
    (h : X.enclosed "patents" X.patentChoiceEnc as = some ks) :
    XField.decAll X.definitionsStep ks d =
      some { d with patents := XField.ofList (as.elems.flatMap X.patentChoiceNorm) } := by
  rcases enclosed_cases h with ⟨rfl, rfl⟩ | ⟨ks', hk, rfl⟩
  · simp only [PSlice.elems, XField.decAll, List.flatMap_nil, XField.ofList, ← hd]
  · have := each_round patentChoice_round as.elems ks' g hk
    have h1 : ("patents" : String) ≠ "standards" := by decide
    simp only [XField.decAll_single, X.definitionsStep, if_neg h1, if_true, this, Option.map_some, Option.some.injEq]
    cases as.elems.flatMap X.patentChoiceNorm with
    | nil => simp [XField.ofList, ← hd]
    | cons a as => simp [XField.ofList]

instance : XLawful X.definitions where
  round n d x g h := by
    simp only [X.definitions] at h g ⊢
    split at h
    · rename_i ss ps hs hp
      simp only [Option.some.injEq] at h; subst h
      simp only [Xml.kids]
      rw [XField.decAll_append, standards_step {} rfl g.1 hs]
      simp only [Option.bind_some]
      rw [patents_step _ rfl g.2 hp]
    · cases h
  named n d x h := by
    simp only [X.definitions] at h ⊢
    split at h
    · simp only [Option.some.injEq] at h; subst h; simp [Xml.isElem]
    · cases h
  writes n d o h := by
    simp only [X.definitions] at h ⊢
    split at h
    · simp only [Option.some.injEq] at h; subst h; rfl
    · cases h
instance : XNamed X.definitions := ⟨fun _ => rfl⟩

instance : XFieldsLawful X.dependencyFields := by unfold X.dependencyFields; infer_instance
instance : XLawful X.dependency :=
  fresh_lawful (xstruct_lawful X.dependencyFields _ _ (fun _ => rfl) (by simp [X.dependencyFields, XFields.attrNames])
    (by simp [X.dependencyFields, XFields.elemNames, XField.list]) (by simp [X.dependencyFields, XFields.texts]))
instance : XNamed X.dependency := ⟨fun _ => rfl⟩

instance : XFieldsLawful X.resourceReferenceChoiceFields := by unfold X.resourceReferenceChoiceFields; infer_instance
instance : XLawful X.resourceReferenceChoice :=
  xstruct_lawful X.resourceReferenceChoiceFields _ _ (fun _ => rfl)
    List.nodup_nil
    (show (["ref", "externalReference"] : List String).Nodup by decide +kernel) (show (0 : Nat) ≤ 1 by decide)
instance : XNamed X.resourceReferenceChoice := xstruct_named X.resourceReferenceChoiceFields _ _

theorem environmentVariable_round (c : EnvironmentVariableChoice) (ks : List Xml)
    (h : X.environmentVariableEnc c = some ks) :
    X.decEach X.environmentVariableDec ks = some (X.environmentVariableNorm c) := by
  cases hp : c.property with
  | some p =>
    simp only [X.environmentVariableEnc, hp] at h
    split at h
    · cases h
    · obtain ⟨o, ho, rfl⟩ := Option.map_eq_some_iff.1 h
      rcases XField.enc_cases ho with ⟨hw, -⟩ | ⟨-, x, rfl, hx⟩
      · simp [X.property, XCodec.struct] at hw
      · have hr := XLawful.round "environmentVar" p x (by
          simp [X.property, XCodec.struct, X.propertyFields, XFields.good, XText.string]) ho
        have hn : X.property.rename "environmentVar" = "environmentVar" := rfl
        rw [hn] at hx
        obtain ⟨as, ks, rfl⟩ := Xml.isElem_elim hx
        simp only [Option.toList_some, decEach_single, X.environmentVariableNorm, hp]
        simp [X.environmentVariableDec, hr]
  | none =>
    by_cases hv : c.value = ""
    · simp [X.environmentVariableEnc, hp, hv] at h
      subst h
      simp [X.environmentVariableNorm, hp, hv, X.decEach]
    · simp [X.environmentVariableEnc, hp, hv, XCodec.simple] at h
      subst h
      simp [X.environmentVariableNorm, hp, hv, decEach_single, X.environmentVariableDec, XCodec.simple, XText.string, Xml.kids]

instance : XSliceLawful X.environmentVariables where
  round n ls x g h := by
    cases ls with
    | nil => simp [X.environmentVariables] at h
    | cons l ls =>
      simp only [X.environmentVariables, Option.map_eq_some_iff, Option.some.injEq] at h
      obtain ⟨ks, hk, rfl⟩ := h
      exact each_round (good := fun _ => True) (fun a ks _ => environmentVariable_round a ks) (l :: ls) ks
        (fun _ _ => trivial) hk
  named n ls x h := by
    cases ls with
    | nil => simp [X.environmentVariables] at h
    | cons l ls =>
      simp only [X.environmentVariables, Option.map_eq_some_iff, Option.some.injEq] at h
      obtain ⟨ks, hk, rfl⟩ := h
      simp [Xml.isElem, X.environmentVariables]
  writes n ls o h := by
    cases ls with
    | nil => simp only [X.environmentVariables, Option.some.injEq] at h; subst h; rfl
    | cons l ls =>
      simp only [X.environmentVariables, Option.map_eq_some_iff] at h
      obtain ⟨ks, hk, rfl⟩ := h
      rfl
  rename _ := rfl
  zero := rfl

instance : XFieldsLawful X.parameterFields := by unfold X.parameterFields; infer_instance
instance : XLawful X.parameter :=
  xstruct_lawful X.parameterFields _ _ (fun _ => rfl)
    List.nodup_nil
    (show (["name", "value", "dataType"] : List String).Nodup by decide +kernel) (show (0 : Nat) ≤ 1 by decide)
instance : XNamed X.parameter := xstruct_named X.parameterFields _ _

instance : XFieldsLawful X.taskInputFields := by unfold X.taskInputFields; infer_instance
instance : XLawful X.taskInput :=
  xstruct_lawful X.taskInputFields _ _ (fun _ => rfl)
    List.nodup_nil
    (show (["resource", "parameters", "environmentVars", "data", "source", "target", "properties"] : List String).Nodup by decide +kernel) (show (0 : Nat) ≤ 1 by decide)
instance : XNamed X.taskInput := xstruct_named X.taskInputFields _ _

instance : XFieldsLawful X.taskOutputFields := by unfold X.taskOutputFields; infer_instance
instance : XLawful X.taskOutput :=
  xstruct_lawful X.taskOutputFields _ _ (fun _ => rfl)
    List.nodup_nil
    (show (["resource", "parameters", "environmentVars", "data", "type", "source", "target", "properties"] : List String).Nodup by decide +kernel) (show (0 : Nat) ≤ 1 by decide)
instance : XNamed X.taskOutput := xstruct_named X.taskOutputFields _ _

instance : XFieldsLawful X.taskCommandFields := by unfold X.taskCommandFields; infer_instance
instance : XLawful X.taskCommand :=
  xstruct_lawful X.taskCommandFields _ _ (fun _ => rfl)
    List.nodup_nil
    (show (["executed", "properties"] : List String).Nodup by decide +kernel) (show (0 : Nat) ≤ 1 by decide)
instance : XNamed X.taskCommand := xstruct_named X.taskCommandFields _ _

instance : XFieldsLawful X.taskStepFields := by unfold X.taskStepFields; infer_instance
instance : XLawful X.taskStep :=
  xstruct_lawful X.taskStepFields _ _ (fun _ => rfl)
    List.nodup_nil
    (show (["name", "description", "commands", "properties"] : List String).Nodup by decide +kernel) (show (0 : Nat) ≤ 1 by decide)
instance : XNamed X.taskStep := xstruct_named X.taskStepFields _ _

instance : XFieldsLawful X.eventFields := by unfold X.eventFields; infer_instance
instance : XLawful X.event :=
  xstruct_lawful X.eventFields _ _ (fun _ => rfl)
    List.nodup_nil
    (show (["uid", "description", "timeReceived", "data", "source", "target", "properties"] : List String).Nodup by decide +kernel) (show (0 : Nat) ≤ 1 by decide)
instance : XNamed X.event := xstruct_named X.eventFields _ _

instance : XFieldsLawful X.taskTriggerConditionFields := by unfold X.taskTriggerConditionFields; infer_instance
instance : XLawful X.taskTriggerCondition :=
  xstruct_lawful X.taskTriggerConditionFields _ _ (fun _ => rfl)
    List.nodup_nil
    (show (["description", "expression", "properties"] : List String).Nodup by decide +kernel) (show (0 : Nat) ≤ 1 by decide)
instance : XNamed X.taskTriggerCondition := xstruct_named X.taskTriggerConditionFields _ _

instance : XFieldsLawful X.taskTriggerFields := by unfold X.taskTriggerFields; infer_instance
instance : XLawful X.taskTrigger :=
  xstruct_lawful X.taskTriggerFields _ _ (fun _ => rfl)
    (show (["bom-ref"] : List String).Nodup by decide +kernel)
    (show (["uid", "name", "description", "resourceReferences", "type", "event", "conditions", "timeActivated", "inputs", "outputs", "properties"] : List String).Nodup by decide +kernel) (show (0 : Nat) ≤ 1 by decide)
instance : XNamed X.taskTrigger := xstruct_named X.taskTriggerFields _ _

instance : XFieldsLawful X.volumeFields := by unfold X.volumeFields; infer_instance
instance : XLawful X.volume :=
  xstruct_lawful X.volumeFields _ _ (fun _ => rfl)
    List.nodup_nil
    (show (["uid", "name", "mode", "path", "sizeAllocated", "persistent", "remote", "properties"] : List String).Nodup by decide +kernel) (show (0 : Nat) ≤ 1 by decide)
instance : XNamed X.volume := xstruct_named X.volumeFields _ _

instance : XFieldsLawful X.taskWorkspaceFields := by unfold X.taskWorkspaceFields; infer_instance
instance : XLawful X.taskWorkspace :=
  xstruct_lawful X.taskWorkspaceFields _ _ (fun _ => rfl)
    (show (["bom-ref"] : List String).Nodup by decide +kernel)
    (show (["uid", "name", "aliases", "description", "resourceReferences", "accessMode", "mountPath", "managedDataType", "volumeRequest", "volume", "properties"] : List String).Nodup by decide +kernel) (show (0 : Nat) ≤ 1 by decide)
instance : XNamed X.taskWorkspace := xstruct_named X.taskWorkspaceFields _ _

instance : XFieldsLawful X.taskFields := by unfold X.taskFields; infer_instance
instance : XLawful X.task :=
  xstruct_lawful X.taskFields _ _ (fun _ => rfl)
    (show (["bom-ref"] : List String).Nodup by decide +kernel)
    (show (["uid", "name", "description", "properties", "resourceReferences", "taskTypes", "trigger", "steps", "inputs", "outputs", "timeStart", "timeEnd", "workspaces", "runtimeTopology"] : List String).Nodup by decide +kernel) (show (0 : Nat) ≤ 1 by decide)
instance : XNamed X.task := xstruct_named X.taskFields _ _

instance : XFieldsLawful X.workflowFields := by unfold X.workflowFields; infer_instance
instance : XLawful X.workflow :=
  xstruct_lawful X.workflowFields _ _ (fun _ => rfl)
    (show (["bom-ref"] : List String).Nodup by decide +kernel)
    (show (["uid", "name", "description", "resourceReferences", "tasks", "taskDependencies", "taskTypes", "trigger", "steps", "inputs", "outputs", "timeStart", "timeEnd", "workspaces", "runtimeTopology", "properties"] : List String).Nodup by decide +kernel) (show (0 : Nat) ≤ 1 by decide)
instance : XNamed X.workflow := xstruct_named X.workflowFields _ _

instance : XFieldsLawful X.formulaFields := by unfold X.formulaFields; infer_instance
instance : XLawful X.formula :=
  xstruct_lawful X.formulaFields _ _ (fun _ => rfl)
    (show (["bom-ref"] : List String).Nodup by decide +kernel)
    (show (["components", "services", "workflows", "properties"] : List String).Nodup by decide +kernel) (show (0 : Nat) ≤ 1 by decide)
instance : XNamed X.formula := xstruct_named X.formulaFields _ _

instance : XFieldsLawful X.lifecycleFields := by unfold X.lifecycleFields; infer_instance
instance : XLawful X.lifecycle :=
  xstruct_lawful X.lifecycleFields _ _ (fun _ => rfl)
    List.nodup_nil
    (show (["name", "phase", "description"] : List String).Nodup by decide +kernel) (show (0 : Nat) ≤ 1 by decide)
instance : XNamed X.lifecycle := xstruct_named X.lifecycleFields _ _

instance : XFieldsLawful X.toolFields := by unfold X.toolFields; infer_instance
instance : XLawful X.tool :=
  xstruct_lawful X.toolFields _ _ (fun _ => rfl)
    List.nodup_nil
    (show (["vendor", "name", "version", "hashes", "externalReferences"] : List String).Nodup by decide +kernel) (show (0 : Nat) ≤ 1 by decide)
instance : XNamed X.tool := xstruct_named X.toolFields _ _

instance : XFieldsLawful X.toolsChoiceFields := by unfold X.toolsChoiceFields; infer_instance

theorem toolsFold (ts us : List Tool) (cs : List Component) (ss : List Service) :
    ts.foldl (fun (st : List Tool × List Component × List Service) t => (st.1 ++ [t], st.2.1, st.2.2)) (us, cs, ss) =
      (us ++ ts, cs, ss) := by
  induction ts generalizing us with
  | nil => simp
  | cons t ts ih => simp [ih]

theorem tools_step {as : PSlice Tool} {ks : List Xml} (cs : List Component) (ss : List Service)
    (g : ∀ t ∈ as.elems, X.tool.good t) (h : (XField.list "tool" true X.tool).enc as = some ks) :
    XField.decAll X.toolsChoiceStep ks ([], cs, ss) = some (XField.normList true X.tool as.elems, cs, ss) := by
  rw [XField.encList_foldl (c := X.tool) (n := "tool") (oe := true)
    (app := fun (st : List Tool × List Component × List Service) t => (st.1 ++ [t], st.2.1, st.2.2)) ?_ _ g h, toolsFold]
  · rfl
  · intro x s hx
    obtain ⟨as, ks, rfl⟩ := Xml.isElem_elim hx
    have hn : X.tool.rename "tool" = "tool" := rfl
    simp only [X.toolsChoiceStep, hn, if_true]

theorem components_step {as : PSlice Component} {ks : List Xml} (ts : List Tool) (ss : List Service)
    (g : ∀ t ∈ as.elems, X.component.good t)
    (h : (XField.nlist "components" "component" true X.component).enc as = some ks) :
    XField.decAll X.toolsChoiceStep ks (ts, [], ss) = some (ts, XField.normList true X.component as.elems, ss) := by
  by_cases e : as = .nil
  · subst e
    simp only [XField.nlist, Option.some.injEq] at h; subst h; rfl
  · rw [XField.nlist_enc_ne_nil e] at h
    obtain ⟨ks', hk, rfl⟩ := Option.map_eq_some_iff.1 h
    have hd := dec_list_first (m := "components") (F := .elem (.list "service" true X.service) .nil)
      (by simp [XFields.texts]) g hk
    have h1 : ("components" : String) ≠ "tool" := by decide
    simp only [XField.decAll_single, X.toolsChoiceStep, if_neg h1, if_true]
    unfold X.toolsChoiceRaw
    rw [hd]
    simp only [Option.map_some, Option.some.injEq, ofList_elems, ofList_isNil]
    cases XField.normList true X.component as.elems <;> simp

theorem services_step {as : PSlice Service} {ks : List Xml} (ts : List Tool) (cs : List Component)
    (g : ∀ t ∈ as.elems, X.service.good t)
    (h : (XField.nlist "services" "service" true X.service).enc as = some ks) :
    XField.decAll X.toolsChoiceStep ks (ts, cs, []) = some (ts, cs, XField.normList true X.service as.elems) := by
  by_cases e : as = .nil
  · subst e
    simp only [XField.nlist, Option.some.injEq] at h; subst h; rfl
  · rw [XField.nlist_enc_ne_nil e] at h
    obtain ⟨ks', hk, rfl⟩ := Option.map_eq_some_iff.1 h
    have hd := dec_list_second (m := "services") (f := .list "component" true X.component) (F := .nil)
      (by simp [XFields.texts]) (by simp [XField.list]) g hk
    have h1 : ("services" : String) ≠ "tool" := by decide
    have h2 : ("services" : String) ≠ "components" := by decide
    simp only [XField.decAll_single, X.toolsChoiceStep, if_neg h1, if_neg h2, if_true]
    unfold X.toolsChoiceRaw
    rw [hd]
    simp only [Option.map_some, Option.some.injEq, ofList_elems, ofList_isNil]
    cases XField.normList true X.service as.elems <;> simp

theorem toolsChoice_dec {ts : PSlice Tool} {cs : PSlice Component} {ss : PSlice Service} {n : String} {o : Option Xml}
    (hor : ts.elems = [] ∨ (cs.elems = [] ∧ ss.elems = []))
    (g : X.toolsChoiceFields.good (ts, cs, ss, ()))
    (h : (XCodec.struct X.toolsChoiceFields id id).enc n (ts, cs, ss, ()) = some o) :
    ∃ x, o = some x ∧ x.isElem n = true ∧ X.toolsChoice.dec x {} = some
      { tools := XField.ofList (XField.normList true X.tool ts.elems),
        components := XField.ofList (XField.normList true X.component cs.elems),
        services := XField.ofList (XField.normList true X.service ss.elems) } := by
  simp only [XCodec.struct, id] at h
  obtain ⟨ks, hk, rfl⟩ := Option.map_eq_some_iff.1 h
  refine ⟨_, rfl, by simp [Xml.isElem], ?_⟩
  unfold X.toolsChoiceFields at hk
  obtain ⟨k₁, ks₁, h₁, hk₁, rfl⟩ := encKids_elem hk
  obtain ⟨k₂, ks₂, h₂, hk₂, rfl⟩ := encKids_elem hk₁
  obtain ⟨k₃, ks₃, h₃, hk₃, rfl⟩ := encKids_elem hk₂
  simp only [XFields.encKids, Option.some.injEq] at hk₃; subst hk₃
  simp only [X.toolsChoice, Xml.kids, List.append_nil]
  rw [XField.decAll_append, tools_step _ _ g.1 h₁]
  simp only [Option.bind_some]
  rw [XField.decAll_append, components_step _ _ g.2.1 h₂]
  simp only [Option.bind_some]
  rw [services_step _ _ g.2.2.1 h₃]
  simp only
  have hnot : ¬ (XField.normList true X.tool ts.elems ≠ [] ∧
      (XField.normList true X.component cs.elems ≠ [] ∨ XField.normList true X.service ss.elems ≠ [])) := by
    rcases hor with h | ⟨h, h'⟩
    · simp [h, XField.normList]
    · simp [h, h', XField.normList]
  rw [if_neg hnot]
  split
  · rfl
  · rename_i hn
    simp only [ne_eq, not_or, Classical.not_not] at hn
    rw [hn.1, hn.2.1, hn.2.2]; rfl

theorem toolsChoice_enc {tc : ToolsChoice} {n : String} {o : Option Xml} (h : X.toolsChoice.enc n tc = some o) :
    (o = none ∧ tc = {}) ∨ (X.toolsChoice.writes tc = true ∧ (tc.tools.elems = [] ∨ (tc.components.elems = [] ∧ tc.services.elems = [])) ∧
      (XCodec.struct X.toolsChoiceFields id id).enc n (tc.tools, tc.components, tc.services, ()) = some o) := by
  obtain ⟨ts, cs, ss⟩ := tc
  simp only [X.toolsChoice] at h ⊢
  split at h
  · cases h
  · rename_i hn
    split at h
    · rename_i ht
      simp only [Bool.not_eq_true, not_and, not_or, Bool.not_eq_false] at hn ht
      obtain ⟨hc, hs⟩ := hn ht
      have hc : cs = .nil := by cases cs <;> simp_all [PSlice.isNil]
      have hs : ss = .nil := by cases ss <;> simp_all [PSlice.isNil]
      subst hc; subst hs
      exact .inr ⟨by simp [ht], .inr ⟨rfl, rfl⟩, h⟩
    · rename_i ht
      have ht : ts = .nil := by cases ts <;> simp_all [PSlice.isNil]
      subst ht
      split at h
      · rename_i hcs
        refine .inr ⟨?_, .inl rfl, h⟩
        cases cs <;> cases ss <;> simp_all [PSlice.isNil]
      · rename_i hcs
        simp only [Option.some.injEq] at h
        refine .inl ⟨h.symm, ?_⟩
        cases cs <;> cases ss <;> simp_all [PSlice.isNil]

instance : XLawful X.toolsChoice where
  round n tc x g h := by
    rcases toolsChoice_enc h with ⟨h, -⟩ | ⟨-, hor, h⟩
    · cases h
    · obtain ⟨y, hy, -, hd⟩ := toolsChoice_dec hor g h
      simp only [Option.some.injEq] at hy; subst hy
      exact hd
  named n tc x h := by
    rcases toolsChoice_enc h with ⟨h, -⟩ | ⟨-, hor, h⟩
    · cases h
    · simp only [XCodec.struct, Option.map_eq_some_iff, Option.some.injEq] at h
      obtain ⟨ks, -, rfl⟩ := h
      simp [Xml.isElem, X.toolsChoice]
  writes n tc o h := by
    rcases toolsChoice_enc h with ⟨rfl, rfl⟩ | ⟨hw, hor, h⟩
    · rfl
    · simp only [XCodec.struct, Option.map_eq_some_iff] at h
      obtain ⟨ks, -, rfl⟩ := h
      exact hw.symm
instance : XNamed X.toolsChoice := ⟨fun _ => rfl⟩

instance : XFieldsLawful X.distributionConstraintsFields := by unfold X.distributionConstraintsFields; infer_instance
instance : XLawful X.distributionConstraints :=
  xstruct_lawful X.distributionConstraintsFields _ _ (fun _ => rfl)
    List.nodup_nil
    (show (["tlp"] : List String).Nodup by decide +kernel) (show (0 : Nat) ≤ 1 by decide)
instance : XNamed X.distributionConstraints := xstruct_named X.distributionConstraintsFields _ _

instance : XFieldsLawful X.metadataFields := by unfold X.metadataFields; infer_instance
instance : XLawful X.metadata :=
  xstruct_lawful X.metadataFields _ _ (fun _ => rfl)
    List.nodup_nil
    (show (["timestamp", "lifecycles", "tools", "authors", "component", "manufacture", "manufacturer", "supplier", "licenses", "properties", "distributionConstraints"] : List String).Nodup by decide +kernel) (show (0 : Nat) ≤ 1 by decide)
instance : XNamed X.metadata := xstruct_named X.metadataFields _ _

instance : XFieldsLawful X.creditsFields := by unfold X.creditsFields; infer_instance
instance : XLawful X.credits :=
  xstruct_lawful X.creditsFields _ _ (fun _ => rfl)
    List.nodup_nil
    (show (["organizations", "individuals"] : List String).Nodup by decide +kernel) (show (0 : Nat) ≤ 1 by decide)
instance : XNamed X.credits := xstruct_named X.creditsFields _ _

instance : XFieldsLawful X.proofOfConceptFields := by unfold X.proofOfConceptFields; infer_instance
instance : XLawful X.proofOfConcept :=
  xstruct_lawful X.proofOfConceptFields _ _ (fun _ => rfl)
    List.nodup_nil
    (show (["reproductionSteps", "environment", "supportingMaterial"] : List String).Nodup by decide +kernel) (show (0 : Nat) ≤ 1 by decide)
instance : XNamed X.proofOfConcept := xstruct_named X.proofOfConceptFields _ _

instance : XFieldsLawful X.vulnerabilityAnalysisFields := by unfold X.vulnerabilityAnalysisFields; infer_instance
instance : XLawful X.vulnerabilityAnalysis :=
  xstruct_lawful X.vulnerabilityAnalysisFields _ _ (fun _ => rfl)
    List.nodup_nil
    (show (["state", "justification", "responses", "detail", "firstIssued", "lastUpdated"] : List String).Nodup by decide +kernel) (show (0 : Nat) ≤ 1 by decide)
instance : XNamed X.vulnerabilityAnalysis := xstruct_named X.vulnerabilityAnalysisFields _ _

instance : XFieldsLawful X.vulnerabilityRatingFields := by unfold X.vulnerabilityRatingFields; infer_instance
instance : XLawful X.vulnerabilityRating :=
  xstruct_lawful X.vulnerabilityRatingFields _ _ (fun _ => rfl)
    List.nodup_nil
    (show (["source", "score", "severity", "method", "vector", "justification"] : List String).Nodup by decide +kernel) (show (0 : Nat) ≤ 1 by decide)
instance : XNamed X.vulnerabilityRating := xstruct_named X.vulnerabilityRatingFields _ _

instance : XFieldsLawful X.vulnerabilityReferenceFields := by unfold X.vulnerabilityReferenceFields; infer_instance
instance : XLawful X.vulnerabilityReference :=
  xstruct_lawful X.vulnerabilityReferenceFields _ _ (fun _ => rfl)
    List.nodup_nil
    (show (["id", "source"] : List String).Nodup by decide +kernel) (show (0 : Nat) ≤ 1 by decide)
instance : XNamed X.vulnerabilityReference := xstruct_named X.vulnerabilityReferenceFields _ _

instance : XFieldsLawful X.vulnerabilityFields := by unfold X.vulnerabilityFields; infer_instance
instance : XLawful X.vulnerability :=
  xstruct_lawful X.vulnerabilityFields _ _ (fun _ => rfl)
    (show (["bom-ref"] : List String).Nodup by decide +kernel)
    (show (["id", "source", "references", "ratings", "cwes", "description", "detail", "recommendation", "workaround", "proofOfConcept", "advisories", "created", "published", "updated", "rejected", "credits", "tools", "analysis", "affects", "properties"] : List String).Nodup by decide +kernel) (show (0 : Nat) ≤ 1 by decide)
instance : XNamed X.vulnerability := xstruct_named X.vulnerabilityFields _ _

instance : XFieldsLawful X.citationFields := by unfold X.citationFields; infer_instance
instance : XLawful X.citation :=
  xstruct_lawful X.citationFields _ _ (fun _ => rfl)
    (show (["bom-ref"] : List String).Nodup by decide +kernel)
    (show (["pointers", "expressions", "timestamp", "attributedTo", "process", "note"] : List String).Nodup by decide +kernel) (show (0 : Nat) ≤ 1 by decide)
instance : XNamed X.citation := xstruct_named X.citationFields _ _

instance : XFieldsLawful X.bomFields := by unfold X.bomFields; infer_instance
instance : XLawful X.bom :=
  xstruct_lawful X.bomFields _ _ (fun _ => rfl)
    (show (["xmlns", "serialNumber", "version"] : List String).Nodup by decide +kernel)
    (show (["metadata", "components", "services", "externalReferences", "dependencies", "compositions", "properties", "vulnerabilities", "annotations", "formulation", "declarations", "definitions", "citations"] : List String).Nodup by decide +kernel) (show (0 : Nat) ≤ 1 by decide)
instance : XNamed X.bom := xstruct_named X.bomFields _ _

end Verif
