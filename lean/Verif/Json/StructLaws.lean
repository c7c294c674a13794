import Verif.Json.Structs
import Verif.Json.CustomLaws
import Verif.Json.Knot

/-!
# The JSON codecs of the types of the library are lawful

GENERATED by `tools/gen_json.py`; do not edit by hand.
-/

namespace Verif

open Json (foldKey)

variable [FloatIO]

set_option synthInstance.maxSize 4000
set_option synthInstance.maxHeartbeats 400000

/-- `J.specVersion` that refuses to write a value that is not a version of the specification. -/
def J.specVersionStrict : JCodec Int :=
  { J.specVersion with
    enc := fun v => if SpecVersion1_0 ≤ v ∧ v ≤ SpecVersion1_7 then J.specVersion.enc v else none
    good := fun v => 0 ≤ v ∧ v ≤ SpecVersion1_7 }

omit [FloatIO] in
theorem specVersionOfString_str {v : Int} (h : SpecVersion1_0 ≤ v ∧ v ≤ SpecVersion1_7) :
    specVersionOfString (SpecVersion.str v) = some v := by
  obtain ⟨h1, h2⟩ := h
  simp only [SpecVersion1_0, SpecVersion1_7] at h1 h2
  have : v = 1 ∨ v = 2 ∨ v = 3 ∨ v = 4 ∨ v = 5 ∨ v = 6 ∨ v = 7 ∨ v = 8 := by omega
  rcases this with rfl | rfl | rfl | rfl | rfl | rfl | rfl | rfl <;> decide

omit [FloatIO] in
theorem specVersionStrict_enc {v : Int} {j : Json} (h : J.specVersionStrict.enc v = some j) :
    (SpecVersion1_0 ≤ v ∧ v ≤ SpecVersion1_7) ∧ j = .str (SpecVersion.str v) := by
  simp only [J.specVersionStrict] at h
  split at h
  · rename_i hv
    simp only [J.specVersion, Option.some.injEq] at h
    exact ⟨hv, h.symm⟩
  · simp at h

instance : JLawful J.specVersionStrict where
  round a j _ h := by
    obtain ⟨hv, rfl⟩ := specVersionStrict_enc h
    exact specVersionOfString_str hv
  null a j h := by
    obtain ⟨hv, rfl⟩ := specVersionStrict_enc h
    simp [J.specVersionStrict, J.specVersion]
  distinct a j h := by
    obtain ⟨hv, rfl⟩ := specVersionStrict_enc h
    simp [Json.Distinct]
  canon j a _ h := by
    refine ⟨rfl, ?_⟩
    have h : J.specVersion.dec j 0 = some a := h
    cases j <;> simp only [J.specVersion] at h <;> try simp at h
    unfold specVersionOfString at h
    show 0 ≤ a ∧ a ≤ SpecVersion1_7
    repeat (split at h; · simp only [Option.some.injEq] at h; subst h; decide)
    simp at h
  nonnull j a _ _ _ := rfl
  swap j j' a h _ := by cases h <;> rfl

instance : JZero J.specVersionStrict := ⟨rfl, by show (0 : Int) ≤ 0 ∧ _; decide⟩

instance : JFieldsLawful J.advisoryFields := by unfold J.advisoryFields; infer_instance
instance : JLawful J.advisory :=
  struct_lawful J.advisoryFields _ _ (fun _ => rfl)
    (show (List.map foldKey ["title", "url"]).Nodup by decide +kernel)
instance : JZero J.advisory := struct_zero J.advisoryFields _ _ (fun _ => rfl)
instance : JEmpty J.advisory := struct_empty J.advisoryFields _ _

instance : JFieldsLawful J.affectedVersionsFields := by unfold J.affectedVersionsFields; infer_instance
instance : JLawful J.affectedVersions :=
  struct_lawful J.affectedVersionsFields _ _ (fun _ => rfl)
    (show (List.map foldKey ["version", "range", "status"]).Nodup by decide +kernel)
instance : JZero J.affectedVersions := struct_zero J.affectedVersionsFields _ _ (fun _ => rfl)
instance : JEmpty J.affectedVersions := struct_empty J.affectedVersionsFields _ _

instance : JFieldsLawful J.affectsFields := by unfold J.affectsFields; infer_instance
instance : JLawful J.affects :=
  struct_lawful J.affectsFields _ _ (fun _ => rfl)
    (show (List.map foldKey ["ref", "versions"]).Nodup by decide +kernel)
instance : JZero J.affects := struct_zero J.affectsFields _ _ (fun _ => rfl)
instance : JEmpty J.affects := struct_empty J.affectsFields _ _

instance : JFieldsLawful J.attachedTextFields := by unfold J.attachedTextFields; infer_instance
instance : JLawful J.attachedText :=
  struct_lawful J.attachedTextFields _ _ (fun _ => rfl)
    (show (List.map foldKey ["content", "contentType", "encoding"]).Nodup by decide +kernel)
instance : JZero J.attachedText := struct_zero J.attachedTextFields _ _ (fun _ => rfl)
instance : JEmpty J.attachedText := struct_empty J.attachedTextFields _ _

instance : JFieldsLawful J.propertyFields := by unfold J.propertyFields; infer_instance
instance : JLawful J.property :=
  struct_lawful J.propertyFields _ _ (fun _ => rfl)
    (show (List.map foldKey ["name", "value"]).Nodup by decide +kernel)
instance : JZero J.property := struct_zero J.propertyFields _ _ (fun _ => rfl)
instance : JEmpty J.property := struct_empty J.propertyFields _ _

instance : JFieldsLawful J.componentDataContentsFields := by unfold J.componentDataContentsFields; infer_instance
instance : JLawful J.componentDataContents :=
  struct_lawful J.componentDataContentsFields _ _ (fun _ => rfl)
    (show (List.map foldKey ["attachment", "url", "properties"]).Nodup by decide +kernel)
instance : JZero J.componentDataContents := struct_zero J.componentDataContentsFields _ _ (fun _ => rfl)
instance : JEmpty J.componentDataContents := struct_empty J.componentDataContentsFields _ _

instance : JFieldsLawful J.componentDataGraphicFields := by unfold J.componentDataGraphicFields; infer_instance
instance : JLawful J.componentDataGraphic :=
  struct_lawful J.componentDataGraphicFields _ _ (fun _ => rfl)
    (show (List.map foldKey ["name", "image"]).Nodup by decide +kernel)
instance : JZero J.componentDataGraphic := struct_zero J.componentDataGraphicFields _ _ (fun _ => rfl)
instance : JEmpty J.componentDataGraphic := struct_empty J.componentDataGraphicFields _ _

instance : JFieldsLawful J.componentDataGraphicsFields := by unfold J.componentDataGraphicsFields; infer_instance
instance : JLawful J.componentDataGraphics :=
  struct_lawful J.componentDataGraphicsFields _ _ (fun _ => rfl)
    (show (List.map foldKey ["description", "collection"]).Nodup by decide +kernel)
instance : JZero J.componentDataGraphics := struct_zero J.componentDataGraphicsFields _ _ (fun _ => rfl)
instance : JEmpty J.componentDataGraphics := struct_empty J.componentDataGraphicsFields _ _

instance : JFieldsLawful J.organizationalContactFields := by unfold J.organizationalContactFields; infer_instance
instance : JLawful J.organizationalContact :=
  struct_lawful J.organizationalContactFields _ _ (fun _ => rfl)
    (show (List.map foldKey ["bom-ref", "name", "email", "phone"]).Nodup by decide +kernel)
instance : JZero J.organizationalContact := struct_zero J.organizationalContactFields _ _ (fun _ => rfl)
instance : JEmpty J.organizationalContact := struct_empty J.organizationalContactFields _ _

instance : JFieldsLawful J.postalAddressFields := by unfold J.postalAddressFields; infer_instance
instance : JLawful J.postalAddress :=
  struct_lawful J.postalAddressFields _ _ (fun _ => rfl)
    (show (List.map foldKey ["bom-ref", "country", "region", "locality", "postOfficeBoxNumber", "postalCode", "streetAddress"]).Nodup by decide +kernel)
instance : JZero J.postalAddress := struct_zero J.postalAddressFields _ _ (fun _ => rfl)
instance : JEmpty J.postalAddress := struct_empty J.postalAddressFields _ _

instance : JFieldsLawful J.organizationalEntityFields := by unfold J.organizationalEntityFields; infer_instance
instance : JLawful J.organizationalEntity :=
  struct_lawful J.organizationalEntityFields _ _ (fun _ => rfl)
    (show (List.map foldKey ["bom-ref", "name", "address", "url", "contact"]).Nodup by decide +kernel)
instance : JZero J.organizationalEntity := struct_zero J.organizationalEntityFields _ _ (fun _ => rfl)
instance : JEmpty J.organizationalEntity := struct_empty J.organizationalEntityFields _ _

instance : JFieldsLawful J.componentDataGovernanceResponsiblePartyFields := by unfold J.componentDataGovernanceResponsiblePartyFields; infer_instance
instance : JLawful J.componentDataGovernanceResponsibleParty :=
  struct_lawful J.componentDataGovernanceResponsiblePartyFields _ _ (fun _ => rfl)
    (show (List.map foldKey ["organization", "contact"]).Nodup by decide +kernel)
instance : JZero J.componentDataGovernanceResponsibleParty := struct_zero J.componentDataGovernanceResponsiblePartyFields _ _ (fun _ => rfl)
instance : JEmpty J.componentDataGovernanceResponsibleParty := struct_empty J.componentDataGovernanceResponsiblePartyFields _ _

instance : JFieldsLawful J.dataGovernanceFields := by unfold J.dataGovernanceFields; infer_instance
instance : JLawful J.dataGovernance :=
  struct_lawful J.dataGovernanceFields _ _ (fun _ => rfl)
    (show (List.map foldKey ["custodians", "stewards", "owners"]).Nodup by decide +kernel)
instance : JZero J.dataGovernance := struct_zero J.dataGovernanceFields _ _ (fun _ => rfl)
instance : JEmpty J.dataGovernance := struct_empty J.dataGovernanceFields _ _

instance : JFieldsLawful J.componentDataFields := by unfold J.componentDataFields; infer_instance
instance : JLawful J.componentData :=
  struct_lawful J.componentDataFields _ _ (fun _ => rfl)
    (show (List.map foldKey ["bom-ref", "type", "name", "contents", "classification", "sensitiveData", "graphics", "description", "governance"]).Nodup by decide +kernel)
instance : JZero J.componentData := struct_zero J.componentDataFields _ _ (fun _ => rfl)
instance : JEmpty J.componentData := struct_empty J.componentDataFields _ _

instance : JFieldsLawful J.hashFields := by unfold J.hashFields; infer_instance
instance : JLawful J.hash :=
  struct_lawful J.hashFields _ _ (fun _ => rfl)
    (show (List.map foldKey ["alg", "content"]).Nodup by decide +kernel)
instance : JZero J.hash := struct_zero J.hashFields _ _ (fun _ => rfl)
instance : JEmpty J.hash := struct_empty J.hashFields _ _

instance : JFieldsLawful J.relatedCryptographicAssetFields := by unfold J.relatedCryptographicAssetFields; infer_instance
instance : JLawful J.relatedCryptographicAsset :=
  struct_lawful J.relatedCryptographicAssetFields _ _ (fun _ => rfl)
    (show (List.map foldKey ["type", "ref"]).Nodup by decide +kernel)
instance : JZero J.relatedCryptographicAsset := struct_zero J.relatedCryptographicAssetFields _ _ (fun _ => rfl)
instance : JEmpty J.relatedCryptographicAsset := struct_empty J.relatedCryptographicAssetFields _ _

instance : JFieldsLawful J.predefinedCertificateStateFields := by unfold J.predefinedCertificateStateFields; infer_instance
instance : JLawful J.predefinedCertificateState :=
  struct_lawful J.predefinedCertificateStateFields _ _ (fun _ => rfl)
    (show (List.map foldKey ["state", "reason"]).Nodup by decide +kernel)
instance : JZero J.predefinedCertificateState := struct_zero J.predefinedCertificateStateFields _ _ (fun _ => rfl)
instance : JEmpty J.predefinedCertificateState := struct_empty J.predefinedCertificateStateFields _ _

instance : JFieldsLawful J.customCertificateStateFields := by unfold J.customCertificateStateFields; infer_instance
instance : JLawful J.customCertificateState :=
  struct_lawful J.customCertificateStateFields _ _ (fun _ => rfl)
    (show (List.map foldKey ["name", "description", "reason"]).Nodup by decide +kernel)
instance : JZero J.customCertificateState := struct_zero J.customCertificateStateFields _ _ (fun _ => rfl)
instance : JEmpty J.customCertificateState := struct_empty J.customCertificateStateFields _ _

example : JLawful J.certificateState := inferInstance

instance : JFieldsLawful J.commonCertificateExtensionFields := by unfold J.commonCertificateExtensionFields; infer_instance
instance : JLawful J.commonCertificateExtension :=
  struct_lawful J.commonCertificateExtensionFields _ _ (fun _ => rfl)
    (show (List.map foldKey ["commonExtensionName", "commonExtensionValue"]).Nodup by decide +kernel)
instance : JZero J.commonCertificateExtension := struct_zero J.commonCertificateExtensionFields _ _ (fun _ => rfl)
instance : JEmpty J.commonCertificateExtension := struct_empty J.commonCertificateExtensionFields _ _

instance : JFieldsLawful J.customCertificateExtensionFields := by unfold J.customCertificateExtensionFields; infer_instance
instance : JLawful J.customCertificateExtension :=
  struct_lawful J.customCertificateExtensionFields _ _ (fun _ => rfl)
    (show (List.map foldKey ["customExtensionName", "customExtensionValue"]).Nodup by decide +kernel)
instance : JZero J.customCertificateExtension := struct_zero J.customCertificateExtensionFields _ _ (fun _ => rfl)
instance : JEmpty J.customCertificateExtension := struct_empty J.customCertificateExtensionFields _ _

example : JLawful J.certificateExtension := inferInstance

instance : JFieldsLawful J.certificatePropertiesFields := by unfold J.certificatePropertiesFields; infer_instance
instance : JLawful J.certificateProperties :=
  struct_lawful J.certificatePropertiesFields _ _ (fun _ => rfl)
    (show (List.map foldKey ["serialNumber", "subjectName", "issuerName", "notValidBefore", "notValidAfter", "signatureAlgorithmRef", "subjectPublicKeyRef", "certificateFormat", "certificateExtension", "certificateFileExtension", "fingerprint", "certificateState", "certificateExtensions", "relatedCryptographicAssets", "creationDate", "activationDate", "deactivationDate", "revocationDate", "destructionDate"]).Nodup by decide +kernel)
instance : JZero J.certificateProperties := struct_zero J.certificatePropertiesFields _ _ (fun _ => rfl)
instance : JEmpty J.certificateProperties := struct_empty J.certificatePropertiesFields _ _

instance : JFieldsLawful J.cryptoAlgorithmPropertiesFields := by unfold J.cryptoAlgorithmPropertiesFields; infer_instance
instance : JLawful J.cryptoAlgorithmProperties :=
  struct_lawful J.cryptoAlgorithmPropertiesFields _ _ (fun _ => rfl)
    (show (List.map foldKey ["primitive", "parameterSetIdentifier", "algorithmFamily", "curve", "ellipticCurve", "executionEnvironment", "implementationPlatform", "certificationLevel", "mode", "padding", "cryptoFunctions", "classicalSecurityLevel", "nistQuantumSecurityLevel"]).Nodup by decide +kernel)
instance : JZero J.cryptoAlgorithmProperties := struct_zero J.cryptoAlgorithmPropertiesFields _ _ (fun _ => rfl)
instance : JEmpty J.cryptoAlgorithmProperties := struct_empty J.cryptoAlgorithmPropertiesFields _ _

instance : JFieldsLawful J.cipherSuiteFields := by unfold J.cipherSuiteFields; infer_instance
instance : JLawful J.cipherSuite :=
  struct_lawful J.cipherSuiteFields _ _ (fun _ => rfl)
    (show (List.map foldKey ["name", "algorithms", "identifiers", "tlsGroups", "tlsSignatureSchemes"]).Nodup by decide +kernel)
instance : JZero J.cipherSuite := struct_zero J.cipherSuiteFields _ _ (fun _ => rfl)
instance : JEmpty J.cipherSuite := struct_empty J.cipherSuiteFields _ _

instance : JFieldsLawful J.ikev2AuthFields := by unfold J.ikev2AuthFields; infer_instance
instance : JLawful J.ikev2Auth :=
  have : JLawful (JCodec.struct J.ikev2AuthFields IKEv2Auth.toP IKEv2Auth.ofP) :=
    struct_lawful J.ikev2AuthFields _ _ (fun _ => rfl)
      (show (List.map foldKey ["name", "algorithm"]).Nodup by decide +kernel)
  have : JZero (JCodec.struct J.ikev2AuthFields IKEv2Auth.toP IKEv2Auth.ofP) := struct_zero _ _ _ (fun _ => rfl)
  ikev2_lawful _ _ (fun _ _ => rfl) (fun _ => rfl) rfl

instance : JFieldsLawful J.ikev2EncFields := by unfold J.ikev2EncFields; infer_instance
instance : JLawful J.ikev2Enc :=
  have : JLawful (JCodec.struct J.ikev2EncFields IKEv2Enc.toP IKEv2Enc.ofP) :=
    struct_lawful J.ikev2EncFields _ _ (fun _ => rfl)
      (show (List.map foldKey ["name", "keyLength", "algorithm"]).Nodup by decide +kernel)
  have : JZero (JCodec.struct J.ikev2EncFields IKEv2Enc.toP IKEv2Enc.ofP) := struct_zero _ _ _ (fun _ => rfl)
  ikev2_lawful _ _ (fun _ _ => rfl) (fun _ => rfl) rfl

instance : JFieldsLawful J.ikev2IntegFields := by unfold J.ikev2IntegFields; infer_instance
instance : JLawful J.ikev2Integ :=
  have : JLawful (JCodec.struct J.ikev2IntegFields IKEv2Integ.toP IKEv2Integ.ofP) :=
    struct_lawful J.ikev2IntegFields _ _ (fun _ => rfl)
      (show (List.map foldKey ["name", "algorithm"]).Nodup by decide +kernel)
  have : JZero (JCodec.struct J.ikev2IntegFields IKEv2Integ.toP IKEv2Integ.ofP) := struct_zero _ _ _ (fun _ => rfl)
  ikev2_lawful _ _ (fun _ _ => rfl) (fun _ => rfl) rfl

instance : JFieldsLawful J.ikev2KeFields := by unfold J.ikev2KeFields; infer_instance
instance : JLawful J.ikev2Ke :=
  have : JLawful (JCodec.struct J.ikev2KeFields IKEv2Ke.toP IKEv2Ke.ofP) :=
    struct_lawful J.ikev2KeFields _ _ (fun _ => rfl)
      (show (List.map foldKey ["group", "algorithm"]).Nodup by decide +kernel)
  have : JZero (JCodec.struct J.ikev2KeFields IKEv2Ke.toP IKEv2Ke.ofP) := struct_zero _ _ _ (fun _ => rfl)
  ikev2_lawful _ _ (fun _ _ => rfl) (fun _ => rfl) rfl

instance : JFieldsLawful J.ikev2PrfFields := by unfold J.ikev2PrfFields; infer_instance
instance : JLawful J.ikev2Prf :=
  have : JLawful (JCodec.struct J.ikev2PrfFields IKEv2Prf.toP IKEv2Prf.ofP) :=
    struct_lawful J.ikev2PrfFields _ _ (fun _ => rfl)
      (show (List.map foldKey ["name", "algorithm"]).Nodup by decide +kernel)
  have : JZero (JCodec.struct J.ikev2PrfFields IKEv2Prf.toP IKEv2Prf.ofP) := struct_zero _ _ _ (fun _ => rfl)
  ikev2_lawful _ _ (fun _ _ => rfl) (fun _ => rfl) rfl

instance : JFieldsLawful J.ikev2TransformTypesFields := by unfold J.ikev2TransformTypesFields; infer_instance
instance : JLawful J.ikev2TransformTypes :=
  struct_lawful J.ikev2TransformTypesFields _ _ (fun _ => rfl)
    (show (List.map foldKey ["encr", "prf", "integ", "ke", "esn", "auth"]).Nodup by decide +kernel)
instance : JZero J.ikev2TransformTypes := struct_zero J.ikev2TransformTypesFields _ _ (fun _ => rfl)
instance : JEmpty J.ikev2TransformTypes := struct_empty J.ikev2TransformTypesFields _ _

instance : JFieldsLawful J.cryptoProtocolPropertiesFields := by unfold J.cryptoProtocolPropertiesFields; infer_instance
instance : JLawful J.cryptoProtocolProperties :=
  struct_lawful J.cryptoProtocolPropertiesFields _ _ (fun _ => rfl)
    (show (List.map foldKey ["type", "version", "cipherSuites", "ikev2TransformTypes", "cryptoRefArray", "relatedCryptographicAssets"]).Nodup by decide +kernel)
instance : JZero J.cryptoProtocolProperties := struct_zero J.cryptoProtocolPropertiesFields _ _ (fun _ => rfl)
instance : JEmpty J.cryptoProtocolProperties := struct_empty J.cryptoProtocolPropertiesFields _ _

instance : JFieldsLawful J.securedByFields := by unfold J.securedByFields; infer_instance
instance : JLawful J.securedBy :=
  struct_lawful J.securedByFields _ _ (fun _ => rfl)
    (show (List.map foldKey ["mechanism", "algorithmRef"]).Nodup by decide +kernel)
instance : JZero J.securedBy := struct_zero J.securedByFields _ _ (fun _ => rfl)
instance : JEmpty J.securedBy := struct_empty J.securedByFields _ _

instance : JFieldsLawful J.relatedCryptoMaterialPropertiesFields := by unfold J.relatedCryptoMaterialPropertiesFields; infer_instance
instance : JLawful J.relatedCryptoMaterialProperties :=
  struct_lawful J.relatedCryptoMaterialPropertiesFields _ _ (fun _ => rfl)
    (show (List.map foldKey ["type", "id", "state", "algorithmRef", "creationDate", "activationDate", "updateDate", "expirationDate", "value", "size", "format", "securedBy", "fingerprint", "relatedCryptographicAssets"]).Nodup by decide +kernel)
instance : JZero J.relatedCryptoMaterialProperties := struct_zero J.relatedCryptoMaterialPropertiesFields _ _ (fun _ => rfl)
instance : JEmpty J.relatedCryptoMaterialProperties := struct_empty J.relatedCryptoMaterialPropertiesFields _ _

instance : JFieldsLawful J.cryptoPropertiesFields := by unfold J.cryptoPropertiesFields; infer_instance
instance : JLawful J.cryptoProperties :=
  struct_lawful J.cryptoPropertiesFields _ _ (fun _ => rfl)
    (show (List.map foldKey ["assetType", "algorithmProperties", "certificateProperties", "relatedCryptoMaterialProperties", "protocolProperties", "oid"]).Nodup by decide +kernel)
instance : JZero J.cryptoProperties := struct_zero J.cryptoPropertiesFields _ _ (fun _ => rfl)
instance : JEmpty J.cryptoProperties := struct_empty J.cryptoPropertiesFields _ _

instance : JFieldsLawful J.callstackFrameFields := by unfold J.callstackFrameFields; infer_instance
instance : JLawful J.callstackFrame :=
  struct_lawful J.callstackFrameFields _ _ (fun _ => rfl)
    (show (List.map foldKey ["package", "module", "function", "parameters", "line", "column", "fullFilename"]).Nodup by decide +kernel)
instance : JZero J.callstackFrame := struct_zero J.callstackFrameFields _ _ (fun _ => rfl)
instance : JEmpty J.callstackFrame := struct_empty J.callstackFrameFields _ _

instance : JFieldsLawful J.callstackFields := by unfold J.callstackFields; infer_instance
instance : JLawful J.callstack :=
  struct_lawful J.callstackFields _ _ (fun _ => rfl)
    (show (List.map foldKey ["frames"]).Nodup by decide +kernel)
instance : JZero J.callstack := struct_zero J.callstackFields _ _ (fun _ => rfl)
instance : JEmpty J.callstack := struct_empty J.callstackFields _ _

instance : JFieldsLawful J.copyrightFields := by unfold J.copyrightFields; infer_instance
instance : JLawful J.copyright :=
  struct_lawful J.copyrightFields _ _ (fun _ => rfl)
    (show (List.map foldKey ["text"]).Nodup by decide +kernel)
instance : JZero J.copyright := struct_zero J.copyrightFields _ _ (fun _ => rfl)
instance : JEmpty J.copyright := struct_empty J.copyrightFields _ _

instance : JFieldsLawful J.evidenceIdentityMethodFields := by unfold J.evidenceIdentityMethodFields; infer_instance
instance : JLawful J.evidenceIdentityMethod :=
  struct_lawful J.evidenceIdentityMethodFields _ _ (fun _ => rfl)
    (show (List.map foldKey ["technique", "confidence", "value"]).Nodup by decide +kernel)
instance : JZero J.evidenceIdentityMethod := struct_zero J.evidenceIdentityMethodFields _ _ (fun _ => rfl)
instance : JEmpty J.evidenceIdentityMethod := struct_empty J.evidenceIdentityMethodFields _ _

instance : JFieldsLawful J.evidenceIdentityFields := by unfold J.evidenceIdentityFields; infer_instance
instance : JLawful J.evidenceIdentity :=
  struct_lawful J.evidenceIdentityFields _ _ (fun _ => rfl)
    (show (List.map foldKey ["field", "confidence", "concludedValue", "methods", "tools"]).Nodup by decide +kernel)
instance : JZero J.evidenceIdentity := struct_zero J.evidenceIdentityFields _ _ (fun _ => rfl)
instance : JEmpty J.evidenceIdentity := struct_empty J.evidenceIdentityFields _ _

example : JLawful J.evidenceIdentityChoice := inferInstance

instance : JFieldsLawful J.evidenceOccurrenceFields := by unfold J.evidenceOccurrenceFields; infer_instance
instance : JLawful J.evidenceOccurrence :=
  struct_lawful J.evidenceOccurrenceFields _ _ (fun _ => rfl)
    (show (List.map foldKey ["bom-ref", "location", "line", "offset", "symbol", "additionalContext"]).Nodup by decide +kernel)
instance : JZero J.evidenceOccurrence := struct_zero J.evidenceOccurrenceFields _ _ (fun _ => rfl)
instance : JEmpty J.evidenceOccurrence := struct_empty J.evidenceOccurrenceFields _ _

instance : JFieldsLawful J.organizationalEntityOrContactFields := by unfold J.organizationalEntityOrContactFields; infer_instance
instance : JLawful J.organizationalEntityOrContact :=
  struct_lawful J.organizationalEntityOrContactFields _ _ (fun _ => rfl)
    (show (List.map foldKey ["organization", "individual"]).Nodup by decide +kernel)
instance : JZero J.organizationalEntityOrContact := struct_zero J.organizationalEntityOrContactFields _ _ (fun _ => rfl)
instance : JEmpty J.organizationalEntityOrContact := struct_empty J.organizationalEntityOrContactFields _ _

instance : JFieldsLawful J.licensingFields := by unfold J.licensingFields; infer_instance
instance : JLawful J.licensing :=
  struct_lawful J.licensingFields _ _ (fun _ => rfl)
    (show (List.map foldKey ["altIds", "licensor", "licensee", "purchaser", "purchaseOrder", "licenseTypes", "lastRenewal", "expiration"]).Nodup by decide +kernel)
instance : JZero J.licensing := struct_zero J.licensingFields _ _ (fun _ => rfl)
instance : JEmpty J.licensing := struct_empty J.licensingFields _ _

instance : JFieldsLawful J.licenseFields := by unfold J.licenseFields; infer_instance
instance : JLawful J.licenseAlias :=
  struct_lawful J.licenseFields _ _ (fun _ => rfl)
    (show (List.map foldKey ["bom-ref", "id", "name", "acknowledgement", "text", "url", "licensing", "properties"]).Nodup by decide +kernel)
example : JLawful J.license := inferInstance

instance : JFieldsLawful J.licenseExpressionDetailFields := by unfold J.licenseExpressionDetailFields; infer_instance
instance : JLawful J.licenseExpressionDetail :=
  struct_lawful J.licenseExpressionDetailFields _ _ (fun _ => rfl)
    (show (List.map foldKey ["licenseIdentifier", "bom-ref", "text", "url"]).Nodup by decide +kernel)
instance : JZero J.licenseExpressionDetail := struct_zero J.licenseExpressionDetailFields _ _ (fun _ => rfl)
instance : JEmpty J.licenseExpressionDetail := struct_empty J.licenseExpressionDetailFields _ _

instance : JFieldsLawful J.licenseChoiceFields := by unfold J.licenseChoiceFields; infer_instance
instance : JLawful J.licenseChoice :=
  struct_lawful J.licenseChoiceFields _ _ (fun _ => rfl)
    (show (List.map foldKey ["license", "expression", "expressionDetails", "acknowledgement", "bom-ref", "licensing", "properties"]).Nodup by decide +kernel)
instance : JZero J.licenseChoice := struct_zero J.licenseChoiceFields _ _ (fun _ => rfl)
instance : JEmpty J.licenseChoice := struct_empty J.licenseChoiceFields _ _

instance : JFieldsLawful J.evidenceFields := by unfold J.evidenceFields; infer_instance
instance : JLawful J.evidence :=
  struct_lawful J.evidenceFields _ _ (fun _ => rfl)
    (show (List.map foldKey ["identity", "occurrences", "callstack", "licenses", "copyright"]).Nodup by decide +kernel)
instance : JZero J.evidence := struct_zero J.evidenceFields _ _ (fun _ => rfl)
instance : JEmpty J.evidence := struct_empty J.evidenceFields _ _

instance : JFieldsLawful J.externalReferenceFields := by unfold J.externalReferenceFields; infer_instance
instance : JLawful J.externalReference :=
  struct_lawful J.externalReferenceFields _ _ (fun _ => rfl)
    (show (List.map foldKey ["url", "comment", "hashes", "type", "properties"]).Nodup by decide +kernel)
instance : JZero J.externalReference := struct_zero J.externalReferenceFields _ _ (fun _ => rfl)
instance : JEmpty J.externalReference := struct_empty J.externalReferenceFields _ _

instance : JFieldsLawful J.jsfPublicKeyFields := by unfold J.jsfPublicKeyFields; infer_instance
instance : JLawful J.jsfPublicKey :=
  struct_lawful J.jsfPublicKeyFields _ _ (fun _ => rfl)
    (show (List.map foldKey ["kty", "crv", "x", "y", "n", "e"]).Nodup by decide +kernel)
instance : JZero J.jsfPublicKey := struct_zero J.jsfPublicKeyFields _ _ (fun _ => rfl)
instance : JEmpty J.jsfPublicKey := struct_empty J.jsfPublicKeyFields _ _

instance : JFieldsLawful J.jsfSignerFields := by unfold J.jsfSignerFields; infer_instance
instance : JLawful J.jsfSigner :=
  struct_lawful J.jsfSignerFields _ _ (fun _ => rfl)
    (show (List.map foldKey ["algorithm", "keyId", "publicKey", "certificatePath", "excludes", "value"]).Nodup by decide +kernel)
instance : JZero J.jsfSigner := struct_zero J.jsfSignerFields _ _ (fun _ => rfl)
instance : JEmpty J.jsfSigner := struct_empty J.jsfSignerFields _ _

instance : JFieldsLawful J.jsfSignatureFields := by unfold J.jsfSignatureFields; infer_instance
instance : JLawful J.jsfSignature :=
  struct_lawful J.jsfSignatureFields _ _ (fun _ => rfl)
    (show (List.map foldKey ["signers", "chain"]).Nodup by decide +kernel)
instance : JZero J.jsfSignature := struct_zero J.jsfSignatureFields _ _ (fun _ => rfl)
instance : JEmpty J.jsfSignature := struct_empty J.jsfSignatureFields _ _

instance : JFieldsLawful J.mlModelCO2MeasureFields := by unfold J.mlModelCO2MeasureFields; infer_instance
instance : JLawful J.mlModelCO2Measure :=
  struct_lawful J.mlModelCO2MeasureFields _ _ (fun _ => rfl)
    (show (List.map foldKey ["value", "unit"]).Nodup by decide +kernel)
instance : JZero J.mlModelCO2Measure := struct_zero J.mlModelCO2MeasureFields _ _ (fun _ => rfl)
instance : JEmpty J.mlModelCO2Measure := struct_empty J.mlModelCO2MeasureFields _ _

instance : JFieldsLawful J.mlModelEnergyMeasureFields := by unfold J.mlModelEnergyMeasureFields; infer_instance
instance : JLawful J.mlModelEnergyMeasure :=
  struct_lawful J.mlModelEnergyMeasureFields _ _ (fun _ => rfl)
    (show (List.map foldKey ["value", "unit"]).Nodup by decide +kernel)
instance : JZero J.mlModelEnergyMeasure := struct_zero J.mlModelEnergyMeasureFields _ _ (fun _ => rfl)
instance : JEmpty J.mlModelEnergyMeasure := struct_empty J.mlModelEnergyMeasureFields _ _

instance : JFieldsLawful J.mlModelEnergyProviderFields := by unfold J.mlModelEnergyProviderFields; infer_instance
instance : JLawful J.mlModelEnergyProvider :=
  struct_lawful J.mlModelEnergyProviderFields _ _ (fun _ => rfl)
    (show (List.map foldKey ["bom-ref", "description", "organization", "energySource", "energyProvided", "externalReferences"]).Nodup by decide +kernel)
instance : JZero J.mlModelEnergyProvider := struct_zero J.mlModelEnergyProviderFields _ _ (fun _ => rfl)
instance : JEmpty J.mlModelEnergyProvider := struct_empty J.mlModelEnergyProviderFields _ _

instance : JFieldsLawful J.mlModelEnergyConsumptionFields := by unfold J.mlModelEnergyConsumptionFields; infer_instance
instance : JLawful J.mlModelEnergyConsumption :=
  struct_lawful J.mlModelEnergyConsumptionFields _ _ (fun _ => rfl)
    (show (List.map foldKey ["activity", "energyProviders", "activityEnergyCost", "co2CostEquivalent", "co2CostOffset", "properties"]).Nodup by decide +kernel)
instance : JZero J.mlModelEnergyConsumption := struct_zero J.mlModelEnergyConsumptionFields _ _ (fun _ => rfl)
instance : JEmpty J.mlModelEnergyConsumption := struct_empty J.mlModelEnergyConsumptionFields _ _

instance : JFieldsLawful J.mlModelCardEnvironmentalConsiderationsFields := by unfold J.mlModelCardEnvironmentalConsiderationsFields; infer_instance
instance : JLawful J.mlModelCardEnvironmentalConsiderations :=
  struct_lawful J.mlModelCardEnvironmentalConsiderationsFields _ _ (fun _ => rfl)
    (show (List.map foldKey ["energyConsumptions", "properties"]).Nodup by decide +kernel)
instance : JZero J.mlModelCardEnvironmentalConsiderations := struct_zero J.mlModelCardEnvironmentalConsiderationsFields _ _ (fun _ => rfl)
instance : JEmpty J.mlModelCardEnvironmentalConsiderations := struct_empty J.mlModelCardEnvironmentalConsiderationsFields _ _

instance : JFieldsLawful J.mlModelCardEthicalConsiderationFields := by unfold J.mlModelCardEthicalConsiderationFields; infer_instance
instance : JLawful J.mlModelCardEthicalConsideration :=
  struct_lawful J.mlModelCardEthicalConsiderationFields _ _ (fun _ => rfl)
    (show (List.map foldKey ["name", "mitigationStrategy"]).Nodup by decide +kernel)
instance : JZero J.mlModelCardEthicalConsideration := struct_zero J.mlModelCardEthicalConsiderationFields _ _ (fun _ => rfl)
instance : JEmpty J.mlModelCardEthicalConsideration := struct_empty J.mlModelCardEthicalConsiderationFields _ _

instance : JFieldsLawful J.mlModelCardFairnessAssessmentFields := by unfold J.mlModelCardFairnessAssessmentFields; infer_instance
instance : JLawful J.mlModelCardFairnessAssessment :=
  struct_lawful J.mlModelCardFairnessAssessmentFields _ _ (fun _ => rfl)
    (show (List.map foldKey ["groupAtRisk", "benefits", "harms", "mitigationStrategy"]).Nodup by decide +kernel)
instance : JZero J.mlModelCardFairnessAssessment := struct_zero J.mlModelCardFairnessAssessmentFields _ _ (fun _ => rfl)
instance : JEmpty J.mlModelCardFairnessAssessment := struct_empty J.mlModelCardFairnessAssessmentFields _ _

instance : JFieldsLawful J.mlModelCardConsiderationsFields := by unfold J.mlModelCardConsiderationsFields; infer_instance
instance : JLawful J.mlModelCardConsiderations :=
  struct_lawful J.mlModelCardConsiderationsFields _ _ (fun _ => rfl)
    (show (List.map foldKey ["users", "useCases", "technicalLimitations", "performanceTradeoffs", "ethicalConsiderations", "environmentalConsiderations", "fairnessAssessments"]).Nodup by decide +kernel)
instance : JZero J.mlModelCardConsiderations := struct_zero J.mlModelCardConsiderationsFields _ _ (fun _ => rfl)
instance : JEmpty J.mlModelCardConsiderations := struct_empty J.mlModelCardConsiderationsFields _ _

example : JLawful J.mlDatasetChoice := inferInstance

instance : JFieldsLawful J.mlInputOutputParametersFields := by unfold J.mlInputOutputParametersFields; infer_instance
instance : JLawful J.mlInputOutputParameters :=
  struct_lawful J.mlInputOutputParametersFields _ _ (fun _ => rfl)
    (show (List.map foldKey ["format"]).Nodup by decide +kernel)
instance : JZero J.mlInputOutputParameters := struct_zero J.mlInputOutputParametersFields _ _ (fun _ => rfl)
instance : JEmpty J.mlInputOutputParameters := struct_empty J.mlInputOutputParametersFields _ _

instance : JFieldsLawful J.mlModelParametersApproachFields := by unfold J.mlModelParametersApproachFields; infer_instance
instance : JLawful J.mlModelParametersApproach :=
  struct_lawful J.mlModelParametersApproachFields _ _ (fun _ => rfl)
    (show (List.map foldKey ["type"]).Nodup by decide +kernel)
instance : JZero J.mlModelParametersApproach := struct_zero J.mlModelParametersApproachFields _ _ (fun _ => rfl)
instance : JEmpty J.mlModelParametersApproach := struct_empty J.mlModelParametersApproachFields _ _

instance : JFieldsLawful J.mlModelParametersFields := by unfold J.mlModelParametersFields; infer_instance
instance : JLawful J.mlModelParameters :=
  struct_lawful J.mlModelParametersFields _ _ (fun _ => rfl)
    (show (List.map foldKey ["approach", "task", "architectureFamily", "modelArchitecture", "datasets", "inputs", "outputs"]).Nodup by decide +kernel)
instance : JZero J.mlModelParameters := struct_zero J.mlModelParametersFields _ _ (fun _ => rfl)
instance : JEmpty J.mlModelParameters := struct_empty J.mlModelParametersFields _ _

instance : JFieldsLawful J.mlPerformanceMetricConfidenceIntervalFields := by unfold J.mlPerformanceMetricConfidenceIntervalFields; infer_instance
instance : JLawful J.mlPerformanceMetricConfidenceInterval :=
  struct_lawful J.mlPerformanceMetricConfidenceIntervalFields _ _ (fun _ => rfl)
    (show (List.map foldKey ["lowerBound", "upperBound"]).Nodup by decide +kernel)
instance : JZero J.mlPerformanceMetricConfidenceInterval := struct_zero J.mlPerformanceMetricConfidenceIntervalFields _ _ (fun _ => rfl)
instance : JEmpty J.mlPerformanceMetricConfidenceInterval := struct_empty J.mlPerformanceMetricConfidenceIntervalFields _ _

instance : JFieldsLawful J.mlPerformanceMetricFields := by unfold J.mlPerformanceMetricFields; infer_instance
instance : JLawful J.mlPerformanceMetric :=
  struct_lawful J.mlPerformanceMetricFields _ _ (fun _ => rfl)
    (show (List.map foldKey ["type", "value", "slice", "confidenceInterval"]).Nodup by decide +kernel)
instance : JZero J.mlPerformanceMetric := struct_zero J.mlPerformanceMetricFields _ _ (fun _ => rfl)
instance : JEmpty J.mlPerformanceMetric := struct_empty J.mlPerformanceMetricFields _ _

instance : JFieldsLawful J.mlQuantitativeAnalysisFields := by unfold J.mlQuantitativeAnalysisFields; infer_instance
instance : JLawful J.mlQuantitativeAnalysis :=
  struct_lawful J.mlQuantitativeAnalysisFields _ _ (fun _ => rfl)
    (show (List.map foldKey ["performanceMetrics", "graphics"]).Nodup by decide +kernel)
instance : JZero J.mlQuantitativeAnalysis := struct_zero J.mlQuantitativeAnalysisFields _ _ (fun _ => rfl)
instance : JEmpty J.mlQuantitativeAnalysis := struct_empty J.mlQuantitativeAnalysisFields _ _

instance : JFieldsLawful J.mlModelCardFields := by unfold J.mlModelCardFields; infer_instance
instance : JLawful J.mlModelCard :=
  struct_lawful J.mlModelCardFields _ _ (fun _ => rfl)
    (show (List.map foldKey ["bom-ref", "modelParameters", "quantitativeAnalysis", "considerations"]).Nodup by decide +kernel)
instance : JZero J.mlModelCard := struct_zero J.mlModelCardFields _ _ (fun _ => rfl)
instance : JEmpty J.mlModelCard := struct_empty J.mlModelCardFields _ _

instance : JFieldsLawful J.identifiableActionFields := by unfold J.identifiableActionFields; infer_instance
instance : JLawful J.identifiableAction :=
  struct_lawful J.identifiableActionFields _ _ (fun _ => rfl)
    (show (List.map foldKey ["timestamp", "name", "email"]).Nodup by decide +kernel)
instance : JZero J.identifiableAction := struct_zero J.identifiableActionFields _ _ (fun _ => rfl)
instance : JEmpty J.identifiableAction := struct_empty J.identifiableActionFields _ _

instance : JFieldsLawful J.commitFields := by unfold J.commitFields; infer_instance
instance : JLawful J.commit :=
  struct_lawful J.commitFields _ _ (fun _ => rfl)
    (show (List.map foldKey ["uid", "url", "author", "committer", "message"]).Nodup by decide +kernel)
instance : JZero J.commit := struct_zero J.commitFields _ _ (fun _ => rfl)
instance : JEmpty J.commit := struct_empty J.commitFields _ _

instance : JFieldsLawful J.diffFields := by unfold J.diffFields; infer_instance
instance : JLawful J.diff :=
  struct_lawful J.diffFields _ _ (fun _ => rfl)
    (show (List.map foldKey ["text", "url"]).Nodup by decide +kernel)
instance : JZero J.diff := struct_zero J.diffFields _ _ (fun _ => rfl)
instance : JEmpty J.diff := struct_empty J.diffFields _ _

instance : JFieldsLawful J.sourceFields := by unfold J.sourceFields; infer_instance
instance : JLawful J.source :=
  struct_lawful J.sourceFields _ _ (fun _ => rfl)
    (show (List.map foldKey ["name", "url"]).Nodup by decide +kernel)
instance : JZero J.source := struct_zero J.sourceFields _ _ (fun _ => rfl)
instance : JEmpty J.source := struct_empty J.sourceFields _ _

instance : JFieldsLawful J.issueFields := by unfold J.issueFields; infer_instance
instance : JLawful J.issue :=
  struct_lawful J.issueFields _ _ (fun _ => rfl)
    (show (List.map foldKey ["id", "name", "description", "source", "references", "type"]).Nodup by decide +kernel)
instance : JZero J.issue := struct_zero J.issueFields _ _ (fun _ => rfl)
instance : JEmpty J.issue := struct_empty J.issueFields _ _

instance : JFieldsLawful J.patchFields := by unfold J.patchFields; infer_instance
instance : JLawful J.patch :=
  struct_lawful J.patchFields _ _ (fun _ => rfl)
    (show (List.map foldKey ["diff", "resolves", "type"]).Nodup by decide +kernel)
instance : JZero J.patch := struct_zero J.patchFields _ _ (fun _ => rfl)
instance : JEmpty J.patch := struct_empty J.patchFields _ _

instance (C : JCodec Component) [JLawful C] : JFieldsLawful (J.pedigreeFields C) := by unfold J.pedigreeFields; infer_instance
instance (C : JCodec Component) [JLawful C] : JLawful (J.pedigree C) :=
  struct_lawful (J.pedigreeFields C) _ _ (fun _ => rfl)
    (show (List.map foldKey ["ancestors", "descendants", "variants", "commits", "patches", "notes"]).Nodup by decide +kernel)
instance (C : JCodec Component) [JLawful C] : JZero (J.pedigree C) := struct_zero (J.pedigreeFields C) _ _ (fun _ => rfl)
instance (C : JCodec Component) : JEmpty (J.pedigree C) := struct_empty (J.pedigreeFields C) _ _

instance : JFieldsLawful J.noteFields := by unfold J.noteFields; infer_instance
instance : JLawful J.note :=
  struct_lawful J.noteFields _ _ (fun _ => rfl)
    (show (List.map foldKey ["locale", "text"]).Nodup by decide +kernel)
instance : JZero J.note := struct_zero J.noteFields _ _ (fun _ => rfl)
instance : JEmpty J.note := struct_empty J.noteFields _ _

instance : JFieldsLawful J.releaseNotesFields := by unfold J.releaseNotesFields; infer_instance
instance : JLawful J.releaseNotes :=
  struct_lawful J.releaseNotesFields _ _ (fun _ => rfl)
    (show (List.map foldKey ["type", "title", "featuredImage", "socialImage", "description", "timestamp", "aliases", "tags", "resolves", "notes", "properties"]).Nodup by decide +kernel)
instance : JZero J.releaseNotes := struct_zero J.releaseNotesFields _ _ (fun _ => rfl)
instance : JEmpty J.releaseNotes := struct_empty J.releaseNotesFields _ _

instance : JFieldsLawful J.swidFields := by unfold J.swidFields; infer_instance
instance : JLawful J.swid :=
  struct_lawful J.swidFields _ _ (fun _ => rfl)
    (show (List.map foldKey ["text", "url", "tagId", "name", "version", "tagVersion", "patch"]).Nodup by decide +kernel)
instance : JZero J.swid := struct_zero J.swidFields _ _ (fun _ => rfl)
instance : JEmpty J.swid := struct_empty J.swidFields _ _

example : JLawful J.asserterChoice := inferInstance

instance : JFieldsLawful J.patentAssertionFields := by unfold J.patentAssertionFields; infer_instance
instance : JLawful J.patentAssertion :=
  struct_lawful J.patentAssertionFields _ _ (fun _ => rfl)
    (show (List.map foldKey ["bom-ref", "patentRefs", "assertionType", "asserter", "notes"]).Nodup by decide +kernel)
instance : JZero J.patentAssertion := struct_zero J.patentAssertionFields _ _ (fun _ => rfl)
instance : JEmpty J.patentAssertion := struct_empty J.patentAssertionFields _ _

instance (C : JCodec Component) [JLawful C] : JFieldsLawful (J.componentFields C) := by unfold J.componentFields; infer_instance
instance (C : JCodec Component) [JLawful C] : JLawful (J.componentWith C) :=
  struct_lawful (J.componentFields C) _ _ (fun _ => rfl)
    (show (List.map foldKey ["bom-ref", "mime-type", "type", "supplier", "manufacturer", "author", "authors", "publisher", "group", "name", "version", "description", "scope", "hashes", "licenses", "copyright", "cpe", "purl", "omniborId", "swhid", "swid", "modified", "pedigree", "externalReferences", "properties", "components", "evidence", "releaseNotes", "modelCard", "data", "cryptoProperties", "tags", "isExternal", "patentAssertions", "versionRange", "signature"]).Nodup by decide +kernel)
instance (C : JCodec Component) [JLawful C] : JZero (J.componentWith C) := struct_zero (J.componentFields C) _ _ (fun _ => rfl)
instance (C : JCodec Component) : JEmpty (J.componentWith C) := struct_empty (J.componentFields C) _ _

omit [FloatIO] in
theorem heightComponentList_le {xs : List Component} {n : Nat} :
    heightComponentList xs ≤ n ↔ ∀ c ∈ xs, c.height ≤ n := by
  induction xs with
  | nil => simp [heightComponentList]
  | cons x xs ih => simp [heightComponentList, Nat.max_le, ih]

omit [FloatIO] in
theorem heightComponents_le {p : PSlice Component} {n : Nat} :
    heightComponents p ≤ n ↔ ∀ c ∈ p.elems, c.height ≤ n := by
  cases p <;> simp [heightComponents, PSlice.elems, heightComponentList_le]

omit [FloatIO] in
theorem Component.height_eq (c : Component) :
    c.height = max (heightComponents c.components) (heightPedigreeOpt c.pedigree) + 1 := by
  cases c; rfl

omit [FloatIO] in
theorem heightPedigree_eq (p : Pedigree Component) :
    heightPedigree p = max (heightComponents p.ancestors)
      (max (heightComponents p.descendants) (heightComponents p.variants)) := by
  cases p; rfl

theorem pedigree_sameAt {C D : JCodec Component} {p : Pedigree Component}
    (h1 : ∀ c ∈ p.ancestors.elems, SameAt C D c) (h2 : ∀ c ∈ p.descendants.elems, SameAt C D c)
    (h3 : ∀ c ∈ p.variants.elems, SameAt C D c) : SameAt (J.pedigree C) (J.pedigree D) p := by
  refine SameAt.struct ?_
  unfold J.pedigreeFields
  refine SameFields.field (SameAt.pslice h1) ?_
  refine SameFields.field (SameAt.pslice h2) ?_
  refine SameFields.field (SameAt.pslice h3) ?_
  refine SameFields.field (SameAt.refl _ _) ?_
  refine SameFields.field (SameAt.refl _ _) ?_
  refine SameFields.field (SameAt.refl _ _) ?_
  exact SameFields.refl _ _

theorem component_sameAt {C D : JCodec Component} {c : Component}
    (h1 : ∀ p ∈ c.pedigree, SameAt (J.pedigree C) (J.pedigree D) p)
    (h2 : ∀ x ∈ c.components.elems, SameAt C D x) : SameAt (J.componentWith C) (J.componentWith D) c := by
  refine SameAt.struct ?_
  unfold J.componentFields
  refine SameFields.field (SameAt.refl _ _) ?_
  refine SameFields.field (SameAt.refl _ _) ?_
  refine SameFields.field (SameAt.refl _ _) ?_
  refine SameFields.field (SameAt.refl _ _) ?_
  refine SameFields.field (SameAt.refl _ _) ?_
  refine SameFields.field (SameAt.refl _ _) ?_
  refine SameFields.field (SameAt.refl _ _) ?_
  refine SameFields.field (SameAt.refl _ _) ?_
  refine SameFields.field (SameAt.refl _ _) ?_
  refine SameFields.field (SameAt.refl _ _) ?_
  refine SameFields.field (SameAt.refl _ _) ?_
  refine SameFields.field (SameAt.refl _ _) ?_
  refine SameFields.field (SameAt.refl _ _) ?_
  refine SameFields.field (SameAt.refl _ _) ?_
  refine SameFields.field (SameAt.refl _ _) ?_
  refine SameFields.field (SameAt.refl _ _) ?_
  refine SameFields.field (SameAt.refl _ _) ?_
  refine SameFields.field (SameAt.refl _ _) ?_
  refine SameFields.field (SameAt.refl _ _) ?_
  refine SameFields.field (SameAt.refl _ _) ?_
  refine SameFields.field (SameAt.refl _ _) ?_
  refine SameFields.field (SameAt.refl _ _) ?_
  refine SameFields.field (SameAt.option h1) ?_
  refine SameFields.field (SameAt.refl _ _) ?_
  refine SameFields.field (SameAt.refl _ _) ?_
  refine SameFields.field (SameAt.pslice h2) ?_
  refine SameFields.field (SameAt.refl _ _) ?_
  refine SameFields.field (SameAt.refl _ _) ?_
  refine SameFields.field (SameAt.refl _ _) ?_
  refine SameFields.field (SameAt.refl _ _) ?_
  refine SameFields.field (SameAt.refl _ _) ?_
  refine SameFields.field (SameAt.refl _ _) ?_
  refine SameFields.field (SameAt.refl _ _) ?_
  refine SameFields.field (SameAt.refl _ _) ?_
  refine SameFields.field (SameAt.refl _ _) ?_
  refine SameFields.field (SameAt.refl _ _) ?_
  exact SameFields.refl _ _

theorem pedigree_sameDec {C D : JCodec Component} {n : Nat} (h : SameDec n C D) :
    SameDec (n + 1) (J.pedigree C) (J.pedigree D) := by
  refine SameDec.struct ?_
  unfold J.pedigreeFields
  refine SameSet.field (SameDec.pslice h) ?_
  refine SameSet.field (SameDec.pslice h) ?_
  refine SameSet.field (SameDec.pslice h) ?_
  refine SameSet.field (SameDec.refl _ _) ?_
  refine SameSet.field (SameDec.refl _ _) ?_
  refine SameSet.field (SameDec.refl _ _) ?_
  exact SameSet.refl _ _

theorem component_sameDec {C D : JCodec Component} {n : Nat} (h : SameDec n C D) :
    SameDec (n + 1) (J.componentWith C) (J.componentWith D) := by
  refine SameDec.struct ?_
  unfold J.componentFields
  refine SameSet.field (SameDec.refl _ _) ?_
  refine SameSet.field (SameDec.refl _ _) ?_
  refine SameSet.field (SameDec.refl _ _) ?_
  refine SameSet.field (SameDec.refl _ _) ?_
  refine SameSet.field (SameDec.refl _ _) ?_
  refine SameSet.field (SameDec.refl _ _) ?_
  refine SameSet.field (SameDec.refl _ _) ?_
  refine SameSet.field (SameDec.refl _ _) ?_
  refine SameSet.field (SameDec.refl _ _) ?_
  refine SameSet.field (SameDec.refl _ _) ?_
  refine SameSet.field (SameDec.refl _ _) ?_
  refine SameSet.field (SameDec.refl _ _) ?_
  refine SameSet.field (SameDec.refl _ _) ?_
  refine SameSet.field (SameDec.refl _ _) ?_
  refine SameSet.field (SameDec.refl _ _) ?_
  refine SameSet.field (SameDec.refl _ _) ?_
  refine SameSet.field (SameDec.refl _ _) ?_
  refine SameSet.field (SameDec.refl _ _) ?_
  refine SameSet.field (SameDec.refl _ _) ?_
  refine SameSet.field (SameDec.refl _ _) ?_
  refine SameSet.field (SameDec.refl _ _) ?_
  refine SameSet.field (SameDec.refl _ _) ?_
  refine SameSet.field (SameDec.option ((pedigree_sameDec h).mono (Nat.le_succ _))) ?_
  refine SameSet.field (SameDec.refl _ _) ?_
  refine SameSet.field (SameDec.refl _ _) ?_
  refine SameSet.field (SameDec.pslice h) ?_
  refine SameSet.field (SameDec.refl _ _) ?_
  refine SameSet.field (SameDec.refl _ _) ?_
  refine SameSet.field (SameDec.refl _ _) ?_
  refine SameSet.field (SameDec.refl _ _) ?_
  refine SameSet.field (SameDec.refl _ _) ?_
  refine SameSet.field (SameDec.refl _ _) ?_
  refine SameSet.field (SameDec.refl _ _) ?_
  refine SameSet.field (SameDec.refl _ _) ?_
  refine SameSet.field (SameDec.refl _ _) ?_
  refine SameSet.field (SameDec.refl _ _) ?_
  exact SameSet.refl _ _

theorem componentN_zero (n : Nat) : (J.componentN n).zero = {} := by
  cases n <;> rfl

theorem componentN_sameAt : ∀ (m n : Nat) (c : Component), c.height ≤ m → c.height ≤ n →
    SameAt (J.componentN m) (J.componentN n) c := by
  intro m
  induction m with
  | zero => intro n c h _; rw [Component.height_eq] at h; omega
  | succ m ih =>
    intro n c hm hn
    rw [Component.height_eq] at hm hn
    cases n with
    | zero => omega
    | succ n =>
      have hm : max (heightComponents c.components) (heightPedigreeOpt c.pedigree) ≤ m := by omega
      have hn : max (heightComponents c.components) (heightPedigreeOpt c.pedigree) ≤ n := by omega
      rw [Nat.max_le, heightComponents_le] at hm hn
      refine component_sameAt ?_ (fun x hx => ih n x (hm.1 x hx) (hn.1 x hx))
      intro p hp
      have hp : c.pedigree = some p := hp
      have hm := hm.2
      have hn := hn.2
      simp only [hp, heightPedigreeOpt, heightPedigree_eq, Nat.max_le, heightComponents_le] at hm hn
      exact pedigree_sameAt (fun x hx => ih n x (hm.1 x hx) (hn.1 x hx))
        (fun x hx => ih n x (hm.2.1 x hx) (hn.2.1 x hx)) (fun x hx => ih n x (hm.2.2 x hx) (hn.2.2 x hx))

theorem componentN_sameDec : ∀ (m n : Nat), SameDec (min m n) (J.componentN m) (J.componentN n)
  | 0, n => ⟨by rw [componentN_zero, componentN_zero], fun j a h => by simp at h⟩
  | m + 1, 0 => ⟨by rw [componentN_zero, componentN_zero], fun j a h => by simp at h⟩
  | m + 1, n + 1 => by
    have := component_sameDec (componentN_sameDec m n)
    rw [Nat.add_min_add_right]; exact this

theorem component_knotted : Knotted ({} : Component) J.componentN Component.height where
  lawful n := by
    induction n with
    | zero => exact inferInstanceAs (JLawful (J.bottom _))
    | succ n ih => exact inferInstanceAs (JLawful (J.componentWith (J.componentN n)))
  zero := componentN_zero
  nullish n a := by cases n <;> rfl
  enc := componentN_sameAt
  dec m n j a hm hn := (componentN_sameDec m n).dec j a (by omega)

instance : JLawful J.component := knot_lawful component_knotted
instance : JEmpty J.component := ⟨fun a h => by simp [J.component, J.knot] at h⟩
instance : JZero J.component := by
  have h : ({} : Component).height = 1 := by rw [Component.height_eq]; rfl
  have : JZero (J.componentN 1) := inferInstanceAs (JZero (J.componentWith (J.bottom _)))
  refine ⟨?_, ?_⟩
  · show (J.componentN (Component.height {})).norm {} = {}
    rw [h]; exact this.zero.1
  · show (J.componentN (Component.height {})).good {}
    rw [h]; exact this.zero.2

/-- `J.component` satisfies the recursive equation of the type `Component`. -/
theorem component_sameAt_self (c : Component) : SameAt J.component (J.componentWith J.component) c := by
  let m := c.height
  have key : ∀ x : Component, x.height ≤ m → SameAt (J.componentN m) J.component x := fun x hx =>
    let h := componentN_sameAt m x.height x hx (Nat.le_refl _)
    ⟨h.enc, h.norm, h.good, by rw [component_knotted.nullish]; rfl, by cases m <;> rfl⟩
  have h1 : SameAt J.component (J.componentN (m + 1)) c :=
    let h := componentN_sameAt c.height (m + 1) c (Nat.le_refl _) (Nat.le_succ _)
    ⟨h.enc, h.norm, h.good, by rw [component_knotted.nullish]; rfl, rfl⟩
  have h2 : SameAt (J.componentN (m + 1)) (J.componentWith J.component) c := by
    have hm : max (heightComponents c.components) (heightPedigreeOpt c.pedigree) ≤ m := by
      have := Component.height_eq c; omega
    rw [Nat.max_le, heightComponents_le] at hm
    refine component_sameAt ?_ (fun x hx => key x (hm.1 x hx))
    intro p hp
    have hp : c.pedigree = some p := hp
    have hm := hm.2
    simp only [hp, heightPedigreeOpt, heightPedigree_eq, Nat.max_le, heightComponents_le] at hm
    exact pedigree_sameAt (fun x hx => key x (hm.1 x hx)) (fun x hx => key x (hm.2.1 x hx))
      (fun x hx => key x (hm.2.2 x hx))
  exact ⟨h1.enc.trans h2.enc, h1.norm.trans h2.norm, h1.good.trans h2.good,
    h1.nullish.trans h2.nullish, h1.empty.trans h2.empty⟩

/-- Encoding satisfies the recursive equation of the type `Component`. -/
theorem component_enc (c : Component) : J.component.enc c = (J.componentWith J.component).enc c :=
  (component_sameAt_self c).enc

/-- Decoding satisfies the recursive equation of the type `Component`. -/
theorem component_dec (j : Json) (a : Component) :
    J.component.dec j a = (J.componentWith J.component).dec j a := by
  have h : SameDec j.depth (J.componentN j.depth) J.component :=
    ⟨componentN_zero _, fun x b hx => by
      have := (componentN_sameDec j.depth (x.depth + 1)).dec x b (by omega)
      exact this⟩
  exact (component_sameDec h).dec j a (Nat.lt_succ_self _)

instance : JFieldsLawful J.dataClassificationFields := by unfold J.dataClassificationFields; infer_instance
instance : JLawful J.dataClassification :=
  struct_lawful J.dataClassificationFields _ _ (fun _ => rfl)
    (show (List.map foldKey ["flow", "classification", "name", "description", "governance", "source", "destination"]).Nodup by decide +kernel)
instance : JZero J.dataClassification := struct_zero J.dataClassificationFields _ _ (fun _ => rfl)
instance : JEmpty J.dataClassification := struct_empty J.dataClassificationFields _ _

instance (C : JCodec Service) [JLawful C] : JFieldsLawful (J.serviceFields C) := by unfold J.serviceFields; infer_instance
instance (C : JCodec Service) [JLawful C] : JLawful (J.serviceWith C) :=
  struct_lawful (J.serviceFields C) _ _ (fun _ => rfl)
    (show (List.map foldKey ["bom-ref", "provider", "group", "name", "version", "description", "endpoints", "authenticated", "x-trust-boundary", "data", "licenses", "externalReferences", "properties", "services", "releaseNotes", "tags", "trustZone", "patentAssertions", "signature"]).Nodup by decide +kernel)
instance (C : JCodec Service) [JLawful C] : JZero (J.serviceWith C) := struct_zero (J.serviceFields C) _ _ (fun _ => rfl)
instance (C : JCodec Service) : JEmpty (J.serviceWith C) := struct_empty (J.serviceFields C) _ _

omit [FloatIO] in
theorem heightServiceList_le {xs : List Service} {n : Nat} :
    heightServiceList xs ≤ n ↔ ∀ c ∈ xs, c.height ≤ n := by
  induction xs with
  | nil => simp [heightServiceList]
  | cons x xs ih => simp [heightServiceList, Nat.max_le, ih]

omit [FloatIO] in
theorem heightServices_le {p : PSlice Service} {n : Nat} :
    heightServices p ≤ n ↔ ∀ c ∈ p.elems, c.height ≤ n := by
  cases p <;> simp [heightServices, PSlice.elems, heightServiceList_le]

omit [FloatIO] in
theorem Service.height_eq (c : Service) : c.height = heightServices c.services + 1 := by
  cases c; rfl

theorem service_sameAt {C D : JCodec Service} {c : Service}
    (h : ∀ x ∈ c.services.elems, SameAt C D x) : SameAt (J.serviceWith C) (J.serviceWith D) c := by
  refine SameAt.struct ?_
  unfold J.serviceFields
  refine SameFields.field (SameAt.refl _ _) ?_
  refine SameFields.field (SameAt.refl _ _) ?_
  refine SameFields.field (SameAt.refl _ _) ?_
  refine SameFields.field (SameAt.refl _ _) ?_
  refine SameFields.field (SameAt.refl _ _) ?_
  refine SameFields.field (SameAt.refl _ _) ?_
  refine SameFields.field (SameAt.refl _ _) ?_
  refine SameFields.field (SameAt.refl _ _) ?_
  refine SameFields.field (SameAt.refl _ _) ?_
  refine SameFields.field (SameAt.refl _ _) ?_
  refine SameFields.field (SameAt.refl _ _) ?_
  refine SameFields.field (SameAt.refl _ _) ?_
  refine SameFields.field (SameAt.refl _ _) ?_
  refine SameFields.field (SameAt.pslice h) ?_
  refine SameFields.field (SameAt.refl _ _) ?_
  refine SameFields.field (SameAt.refl _ _) ?_
  refine SameFields.field (SameAt.refl _ _) ?_
  refine SameFields.field (SameAt.refl _ _) ?_
  refine SameFields.field (SameAt.refl _ _) ?_
  exact SameFields.refl _ _

theorem service_sameDec {C D : JCodec Service} {n : Nat} (h : SameDec n C D) :
    SameDec (n + 1) (J.serviceWith C) (J.serviceWith D) := by
  refine SameDec.struct ?_
  unfold J.serviceFields
  refine SameSet.field (SameDec.refl _ _) ?_
  refine SameSet.field (SameDec.refl _ _) ?_
  refine SameSet.field (SameDec.refl _ _) ?_
  refine SameSet.field (SameDec.refl _ _) ?_
  refine SameSet.field (SameDec.refl _ _) ?_
  refine SameSet.field (SameDec.refl _ _) ?_
  refine SameSet.field (SameDec.refl _ _) ?_
  refine SameSet.field (SameDec.refl _ _) ?_
  refine SameSet.field (SameDec.refl _ _) ?_
  refine SameSet.field (SameDec.refl _ _) ?_
  refine SameSet.field (SameDec.refl _ _) ?_
  refine SameSet.field (SameDec.refl _ _) ?_
  refine SameSet.field (SameDec.refl _ _) ?_
  refine SameSet.field (SameDec.pslice h) ?_
  refine SameSet.field (SameDec.refl _ _) ?_
  refine SameSet.field (SameDec.refl _ _) ?_
  refine SameSet.field (SameDec.refl _ _) ?_
  refine SameSet.field (SameDec.refl _ _) ?_
  refine SameSet.field (SameDec.refl _ _) ?_
  exact SameSet.refl _ _

theorem serviceN_zero (n : Nat) : (J.serviceN n).zero = {} := by
  cases n <;> rfl

theorem serviceN_sameAt : ∀ (m n : Nat) (c : Service), c.height ≤ m → c.height ≤ n →
    SameAt (J.serviceN m) (J.serviceN n) c := by
  intro m
  induction m with
  | zero => intro n c h _; rw [Service.height_eq] at h; omega
  | succ m ih =>
    intro n c hm hn
    rw [Service.height_eq] at hm hn
    cases n with
    | zero => omega
    | succ n =>
      have hm : heightServices c.services ≤ m := by omega
      have hn : heightServices c.services ≤ n := by omega
      rw [heightServices_le] at hm hn
      exact service_sameAt (fun x hx => ih n x (hm x hx) (hn x hx))

theorem serviceN_sameDec : ∀ (m n : Nat), SameDec (min m n) (J.serviceN m) (J.serviceN n)
  | 0, n => ⟨by rw [serviceN_zero, serviceN_zero], fun j a h => by simp at h⟩
  | m + 1, 0 => ⟨by rw [serviceN_zero, serviceN_zero], fun j a h => by simp at h⟩
  | m + 1, n + 1 => by
    have := service_sameDec (serviceN_sameDec m n)
    rw [Nat.add_min_add_right]; exact this

theorem service_knotted : Knotted ({} : Service) J.serviceN Service.height where
  lawful n := by
    induction n with
    | zero => exact inferInstanceAs (JLawful (J.bottom _))
    | succ n ih => exact inferInstanceAs (JLawful (J.serviceWith (J.serviceN n)))
  zero := serviceN_zero
  nullish n a := by cases n <;> rfl
  enc := serviceN_sameAt
  dec m n j a hm hn := (serviceN_sameDec m n).dec j a (by omega)

instance : JLawful J.service := knot_lawful service_knotted
instance : JEmpty J.service := ⟨fun a h => by simp [J.service, J.knot] at h⟩
instance : JZero J.service := by
  have h : ({} : Service).height = 1 := by rw [Service.height_eq]; rfl
  have : JZero (J.serviceN 1) := inferInstanceAs (JZero (J.serviceWith (J.bottom _)))
  refine ⟨?_, ?_⟩
  · show (J.serviceN (Service.height {})).norm {} = {}
    rw [h]; exact this.zero.1
  · show (J.serviceN (Service.height {})).good {}
    rw [h]; exact this.zero.2

/-- `J.service` satisfies the recursive equation of the type `Service`. -/
theorem service_sameAt_self (c : Service) : SameAt J.service (J.serviceWith J.service) c := by
  let m := c.height
  have key : ∀ x : Service, x.height ≤ m → SameAt (J.serviceN m) J.service x := fun x hx =>
    let h := serviceN_sameAt m x.height x hx (Nat.le_refl _)
    ⟨h.enc, h.norm, h.good, by rw [service_knotted.nullish]; rfl, by cases m <;> rfl⟩
  have h1 : SameAt J.service (J.serviceN (m + 1)) c :=
    let h := serviceN_sameAt c.height (m + 1) c (Nat.le_refl _) (Nat.le_succ _)
    ⟨h.enc, h.norm, h.good, by rw [service_knotted.nullish]; rfl, rfl⟩
  have h2 : SameAt (J.serviceN (m + 1)) (J.serviceWith J.service) c := by
    have hm : heightServices c.services ≤ m := by
      have := Service.height_eq c; omega
    rw [heightServices_le] at hm
    exact service_sameAt (fun x hx => key x (hm x hx))
  exact ⟨h1.enc.trans h2.enc, h1.norm.trans h2.norm, h1.good.trans h2.good,
    h1.nullish.trans h2.nullish, h1.empty.trans h2.empty⟩

/-- Encoding satisfies the recursive equation of the type `Service`. -/
theorem service_enc (c : Service) : J.service.enc c = (J.serviceWith J.service).enc c :=
  (service_sameAt_self c).enc

/-- Decoding satisfies the recursive equation of the type `Service`. -/
theorem service_dec (j : Json) (a : Service) :
    J.service.dec j a = (J.serviceWith J.service).dec j a := by
  have h : SameDec j.depth (J.serviceN j.depth) J.service :=
    ⟨serviceN_zero _, fun x b hx => by
      have := (serviceN_sameDec j.depth (x.depth + 1)).dec x b (by omega)
      exact this⟩
  exact (service_sameDec h).dec j a (Nat.lt_succ_self _)

instance : JFieldsLawful J.annotatorFields := by unfold J.annotatorFields; infer_instance
instance : JLawful J.annotator :=
  struct_lawful J.annotatorFields _ _ (fun _ => rfl)
    (show (List.map foldKey ["organization", "individual", "component", "service"]).Nodup by decide +kernel)
instance : JZero J.annotator := struct_zero J.annotatorFields _ _ (fun _ => rfl)
instance : JEmpty J.annotator := struct_empty J.annotatorFields _ _

instance : JFieldsLawful J.annotationFields := by unfold J.annotationFields; infer_instance
instance : JLawful J.annotation :=
  struct_lawful J.annotationFields _ _ (fun _ => rfl)
    (show (List.map foldKey ["bom-ref", "subjects", "annotator", "timestamp", "text", "signature"]).Nodup by decide +kernel)
instance : JZero J.annotation := struct_zero J.annotationFields _ _ (fun _ => rfl)
instance : JEmpty J.annotation := struct_empty J.annotationFields _ _

instance : JFieldsLawful J.assessorFields := by unfold J.assessorFields; infer_instance
instance : JLawful J.assessor :=
  struct_lawful J.assessorFields _ _ (fun _ => rfl)
    (show (List.map foldKey ["bom-ref", "thirdParty", "organization"]).Nodup by decide +kernel)
instance : JZero J.assessor := struct_zero J.assessorFields _ _ (fun _ => rfl)
instance : JEmpty J.assessor := struct_empty J.assessorFields _ _

instance : JFieldsLawful J.attestationConformanceFields := by unfold J.attestationConformanceFields; infer_instance
instance : JLawful J.attestationConformance :=
  struct_lawful J.attestationConformanceFields _ _ (fun _ => rfl)
    (show (List.map foldKey ["score", "rationale", "mitigationStrategies"]).Nodup by decide +kernel)
instance : JZero J.attestationConformance := struct_zero J.attestationConformanceFields _ _ (fun _ => rfl)
instance : JEmpty J.attestationConformance := struct_empty J.attestationConformanceFields _ _

instance : JFieldsLawful J.attestationConfidenceFields := by unfold J.attestationConfidenceFields; infer_instance
instance : JLawful J.attestationConfidence :=
  struct_lawful J.attestationConfidenceFields _ _ (fun _ => rfl)
    (show (List.map foldKey ["score", "rationale"]).Nodup by decide +kernel)
instance : JZero J.attestationConfidence := struct_zero J.attestationConfidenceFields _ _ (fun _ => rfl)
instance : JEmpty J.attestationConfidence := struct_empty J.attestationConfidenceFields _ _

instance : JFieldsLawful J.attestationMapFields := by unfold J.attestationMapFields; infer_instance
instance : JLawful J.attestationMap :=
  struct_lawful J.attestationMapFields _ _ (fun _ => rfl)
    (show (List.map foldKey ["requirement", "claims", "counterClaims", "conformance", "confidence"]).Nodup by decide +kernel)
instance : JZero J.attestationMap := struct_zero J.attestationMapFields _ _ (fun _ => rfl)
instance : JEmpty J.attestationMap := struct_empty J.attestationMapFields _ _

instance : JFieldsLawful J.attestationFields := by unfold J.attestationFields; infer_instance
instance : JLawful J.attestation :=
  struct_lawful J.attestationFields _ _ (fun _ => rfl)
    (show (List.map foldKey ["summary", "assessor", "map", "signature"]).Nodup by decide +kernel)
instance : JZero J.attestation := struct_zero J.attestationFields _ _ (fun _ => rfl)
instance : JEmpty J.attestation := struct_empty J.attestationFields _ _

instance : JFieldsLawful J.compositionFields := by unfold J.compositionFields; infer_instance
instance : JLawful J.composition :=
  struct_lawful J.compositionFields _ _ (fun _ => rfl)
    (show (List.map foldKey ["bom-ref", "aggregate", "assemblies", "dependencies", "vulnerabilities", "signature"]).Nodup by decide +kernel)
instance : JZero J.composition := struct_zero J.compositionFields _ _ (fun _ => rfl)
instance : JEmpty J.composition := struct_empty J.compositionFields _ _

instance : JFieldsLawful J.claimFields := by unfold J.claimFields; infer_instance
instance : JLawful J.claim :=
  struct_lawful J.claimFields _ _ (fun _ => rfl)
    (show (List.map foldKey ["bom-ref", "target", "predicate", "mitigationStrategies", "reasoning", "evidence", "counterEvidence", "externalReferences", "signature"]).Nodup by decide +kernel)
instance : JZero J.claim := struct_zero J.claimFields _ _ (fun _ => rfl)
instance : JEmpty J.claim := struct_empty J.claimFields _ _

instance : JFieldsLawful J.evidenceDataContentsFields := by unfold J.evidenceDataContentsFields; infer_instance
instance : JLawful J.evidenceDataContents :=
  struct_lawful J.evidenceDataContentsFields _ _ (fun _ => rfl)
    (show (List.map foldKey ["attachment", "url"]).Nodup by decide +kernel)
instance : JZero J.evidenceDataContents := struct_zero J.evidenceDataContentsFields _ _ (fun _ => rfl)
instance : JEmpty J.evidenceDataContents := struct_empty J.evidenceDataContentsFields _ _

instance : JFieldsLawful J.evidenceDataFields := by unfold J.evidenceDataFields; infer_instance
instance : JLawful J.evidenceData :=
  struct_lawful J.evidenceDataFields _ _ (fun _ => rfl)
    (show (List.map foldKey ["name", "contents", "classification", "sensitiveData", "governance"]).Nodup by decide +kernel)
instance : JZero J.evidenceData := struct_zero J.evidenceDataFields _ _ (fun _ => rfl)
instance : JEmpty J.evidenceData := struct_empty J.evidenceDataFields _ _

instance : JFieldsLawful J.declarationEvidenceFields := by unfold J.declarationEvidenceFields; infer_instance
instance : JLawful J.declarationEvidence :=
  struct_lawful J.declarationEvidenceFields _ _ (fun _ => rfl)
    (show (List.map foldKey ["bom-ref", "propertyName", "description", "data", "created", "expires", "author", "reviewer", "signature"]).Nodup by decide +kernel)
instance : JZero J.declarationEvidence := struct_zero J.declarationEvidenceFields _ _ (fun _ => rfl)
instance : JEmpty J.declarationEvidence := struct_empty J.declarationEvidenceFields _ _

instance : JFieldsLawful J.targetsFields := by unfold J.targetsFields; infer_instance
instance : JLawful J.targets :=
  struct_lawful J.targetsFields _ _ (fun _ => rfl)
    (show (List.map foldKey ["organizations", "components", "services"]).Nodup by decide +kernel)
instance : JZero J.targets := struct_zero J.targetsFields _ _ (fun _ => rfl)
instance : JEmpty J.targets := struct_empty J.targetsFields _ _

instance : JFieldsLawful J.signatoryFields := by unfold J.signatoryFields; infer_instance
instance : JLawful J.signatory :=
  struct_lawful J.signatoryFields _ _ (fun _ => rfl)
    (show (List.map foldKey ["name", "role", "signature", "organization", "externalReference"]).Nodup by decide +kernel)
instance : JZero J.signatory := struct_zero J.signatoryFields _ _ (fun _ => rfl)
instance : JEmpty J.signatory := struct_empty J.signatoryFields _ _

instance : JFieldsLawful J.affirmationFields := by unfold J.affirmationFields; infer_instance
instance : JLawful J.affirmation :=
  struct_lawful J.affirmationFields _ _ (fun _ => rfl)
    (show (List.map foldKey ["statement", "signatories", "signature"]).Nodup by decide +kernel)
instance : JZero J.affirmation := struct_zero J.affirmationFields _ _ (fun _ => rfl)
instance : JEmpty J.affirmation := struct_empty J.affirmationFields _ _

instance : JFieldsLawful J.declarationsFields := by unfold J.declarationsFields; infer_instance
instance : JLawful J.declarations :=
  struct_lawful J.declarationsFields _ _ (fun _ => rfl)
    (show (List.map foldKey ["assessors", "attestations", "claims", "evidence", "targets", "affirmation", "signature"]).Nodup by decide +kernel)
instance : JZero J.declarations := struct_zero J.declarationsFields _ _ (fun _ => rfl)
instance : JEmpty J.declarations := struct_empty J.declarationsFields _ _

instance : JFieldsLawful J.priorityApplicationFields := by unfold J.priorityApplicationFields; infer_instance
instance : JLawful J.priorityApplication :=
  struct_lawful J.priorityApplicationFields _ _ (fun _ => rfl)
    (show (List.map foldKey ["applicationNumber", "jurisdiction", "filingDate"]).Nodup by decide +kernel)
instance : JZero J.priorityApplication := struct_zero J.priorityApplicationFields _ _ (fun _ => rfl)
instance : JEmpty J.priorityApplication := struct_empty J.priorityApplicationFields _ _

instance : JFieldsLawful J.patentFields := by unfold J.patentFields; infer_instance
instance : JLawful J.patent :=
  struct_lawful J.patentFields _ _ (fun _ => rfl)
    (show (List.map foldKey ["bom-ref", "patentNumber", "applicationNumber", "jurisdiction", "priorityApplication", "publicationNumber", "title", "abstract", "filingDate", "grantDate", "patentExpirationDate", "patentLegalStatus", "patentAssignee", "externalReferences"]).Nodup by decide +kernel)
instance : JZero J.patent := struct_zero J.patentFields _ _ (fun _ => rfl)
instance : JEmpty J.patent := struct_empty J.patentFields _ _

instance : JFieldsLawful J.patentFamilyFields := by unfold J.patentFamilyFields; infer_instance
instance : JLawful J.patentFamily :=
  struct_lawful J.patentFamilyFields _ _ (fun _ => rfl)
    (show (List.map foldKey ["bom-ref", "familyId", "priorityApplication", "members", "externalReferences"]).Nodup by decide +kernel)
instance : JZero J.patentFamily := struct_zero J.patentFamilyFields _ _ (fun _ => rfl)
instance : JEmpty J.patentFamily := struct_empty J.patentFamilyFields _ _

example : JLawful J.patentChoice := inferInstance

instance : JFieldsLawful J.standardRequirementFields := by unfold J.standardRequirementFields; infer_instance
instance : JLawful J.standardRequirement :=
  struct_lawful J.standardRequirementFields _ _ (fun _ => rfl)
    (show (List.map foldKey ["bom-ref", "identifier", "title", "text", "descriptions", "openCre", "parent", "properties", "externalReferences"]).Nodup by decide +kernel)
instance : JZero J.standardRequirement := struct_zero J.standardRequirementFields _ _ (fun _ => rfl)
instance : JEmpty J.standardRequirement := struct_empty J.standardRequirementFields _ _

instance : JFieldsLawful J.standardLevelFields := by unfold J.standardLevelFields; infer_instance
instance : JLawful J.standardLevel :=
  struct_lawful J.standardLevelFields _ _ (fun _ => rfl)
    (show (List.map foldKey ["bom-ref", "identifier", "title", "description", "requirements"]).Nodup by decide +kernel)
instance : JZero J.standardLevel := struct_zero J.standardLevelFields _ _ (fun _ => rfl)
instance : JEmpty J.standardLevel := struct_empty J.standardLevelFields _ _

instance : JFieldsLawful J.standardDefinitionFields := by unfold J.standardDefinitionFields; infer_instance
instance : JLawful J.standardDefinition :=
  struct_lawful J.standardDefinitionFields _ _ (fun _ => rfl)
    (show (List.map foldKey ["bom-ref", "name", "version", "description", "owner", "requirements", "levels", "externalReferences", "signature"]).Nodup by decide +kernel)
instance : JZero J.standardDefinition := struct_zero J.standardDefinitionFields _ _ (fun _ => rfl)
instance : JEmpty J.standardDefinition := struct_empty J.standardDefinitionFields _ _

instance : JFieldsLawful J.definitionsFields := by unfold J.definitionsFields; infer_instance
instance : JLawful J.definitions :=
  struct_lawful J.definitionsFields _ _ (fun _ => rfl)
    (show (List.map foldKey ["standards", "patents"]).Nodup by decide +kernel)
instance : JZero J.definitions := struct_zero J.definitionsFields _ _ (fun _ => rfl)
instance : JEmpty J.definitions := struct_empty J.definitionsFields _ _

instance : JFieldsLawful J.dependencyFields := by unfold J.dependencyFields; infer_instance
instance : JLawful J.dependency :=
  struct_lawful J.dependencyFields _ _ (fun _ => rfl)
    (show (List.map foldKey ["ref", "dependsOn", "provides"]).Nodup by decide +kernel)
instance : JZero J.dependency := struct_zero J.dependencyFields _ _ (fun _ => rfl)
instance : JEmpty J.dependency := struct_empty J.dependencyFields _ _

instance : JFieldsLawful J.resourceReferenceChoiceFields := by unfold J.resourceReferenceChoiceFields; infer_instance
instance : JLawful J.resourceReferenceChoice :=
  struct_lawful J.resourceReferenceChoiceFields _ _ (fun _ => rfl)
    (show (List.map foldKey ["ref", "externalReference"]).Nodup by decide +kernel)
instance : JZero J.resourceReferenceChoice := struct_zero J.resourceReferenceChoiceFields _ _ (fun _ => rfl)
instance : JEmpty J.resourceReferenceChoice := struct_empty J.resourceReferenceChoiceFields _ _

example : JLawful J.environmentVariableChoice := inferInstance

instance : JFieldsLawful J.parameterFields := by unfold J.parameterFields; infer_instance
instance : JLawful J.parameter :=
  struct_lawful J.parameterFields _ _ (fun _ => rfl)
    (show (List.map foldKey ["name", "value", "dataType"]).Nodup by decide +kernel)
instance : JZero J.parameter := struct_zero J.parameterFields _ _ (fun _ => rfl)
instance : JEmpty J.parameter := struct_empty J.parameterFields _ _

instance : JFieldsLawful J.taskInputFields := by unfold J.taskInputFields; infer_instance
instance : JLawful J.taskInput :=
  struct_lawful J.taskInputFields _ _ (fun _ => rfl)
    (show (List.map foldKey ["resource", "parameters", "environmentVars", "data", "source", "target", "properties"]).Nodup by decide +kernel)
instance : JZero J.taskInput := struct_zero J.taskInputFields _ _ (fun _ => rfl)
instance : JEmpty J.taskInput := struct_empty J.taskInputFields _ _

instance : JFieldsLawful J.taskOutputFields := by unfold J.taskOutputFields; infer_instance
instance : JLawful J.taskOutput :=
  struct_lawful J.taskOutputFields _ _ (fun _ => rfl)
    (show (List.map foldKey ["resource", "parameters", "environmentVars", "data", "type", "source", "target", "properties"]).Nodup by decide +kernel)
instance : JZero J.taskOutput := struct_zero J.taskOutputFields _ _ (fun _ => rfl)
instance : JEmpty J.taskOutput := struct_empty J.taskOutputFields _ _

instance : JFieldsLawful J.taskCommandFields := by unfold J.taskCommandFields; infer_instance
instance : JLawful J.taskCommand :=
  struct_lawful J.taskCommandFields _ _ (fun _ => rfl)
    (show (List.map foldKey ["executed", "properties"]).Nodup by decide +kernel)
instance : JZero J.taskCommand := struct_zero J.taskCommandFields _ _ (fun _ => rfl)
instance : JEmpty J.taskCommand := struct_empty J.taskCommandFields _ _

instance : JFieldsLawful J.taskStepFields := by unfold J.taskStepFields; infer_instance
instance : JLawful J.taskStep :=
  struct_lawful J.taskStepFields _ _ (fun _ => rfl)
    (show (List.map foldKey ["name", "description", "commands", "properties"]).Nodup by decide +kernel)
instance : JZero J.taskStep := struct_zero J.taskStepFields _ _ (fun _ => rfl)
instance : JEmpty J.taskStep := struct_empty J.taskStepFields _ _

instance : JFieldsLawful J.eventFields := by unfold J.eventFields; infer_instance
instance : JLawful J.event :=
  struct_lawful J.eventFields _ _ (fun _ => rfl)
    (show (List.map foldKey ["uid", "description", "timeReceived", "data", "source", "target", "properties"]).Nodup by decide +kernel)
instance : JZero J.event := struct_zero J.eventFields _ _ (fun _ => rfl)
instance : JEmpty J.event := struct_empty J.eventFields _ _

instance : JFieldsLawful J.taskTriggerConditionFields := by unfold J.taskTriggerConditionFields; infer_instance
instance : JLawful J.taskTriggerCondition :=
  struct_lawful J.taskTriggerConditionFields _ _ (fun _ => rfl)
    (show (List.map foldKey ["description", "expression", "properties"]).Nodup by decide +kernel)
instance : JZero J.taskTriggerCondition := struct_zero J.taskTriggerConditionFields _ _ (fun _ => rfl)
instance : JEmpty J.taskTriggerCondition := struct_empty J.taskTriggerConditionFields _ _

instance : JFieldsLawful J.taskTriggerFields := by unfold J.taskTriggerFields; infer_instance
instance : JLawful J.taskTrigger :=
  struct_lawful J.taskTriggerFields _ _ (fun _ => rfl)
    (show (List.map foldKey ["bom-ref", "uid", "name", "description", "resourceReferences", "type", "event", "conditions", "timeActivated", "inputs", "outputs", "properties"]).Nodup by decide +kernel)
instance : JZero J.taskTrigger := struct_zero J.taskTriggerFields _ _ (fun _ => rfl)
instance : JEmpty J.taskTrigger := struct_empty J.taskTriggerFields _ _

instance : JFieldsLawful J.volumeFields := by unfold J.volumeFields; infer_instance
instance : JLawful J.volume :=
  struct_lawful J.volumeFields _ _ (fun _ => rfl)
    (show (List.map foldKey ["uid", "name", "mode", "path", "sizeAllocated", "persistent", "remote", "properties"]).Nodup by decide +kernel)
instance : JZero J.volume := struct_zero J.volumeFields _ _ (fun _ => rfl)
instance : JEmpty J.volume := struct_empty J.volumeFields _ _

instance : JFieldsLawful J.taskWorkspaceFields := by unfold J.taskWorkspaceFields; infer_instance
instance : JLawful J.taskWorkspace :=
  struct_lawful J.taskWorkspaceFields _ _ (fun _ => rfl)
    (show (List.map foldKey ["bom-ref", "uid", "name", "aliases", "description", "resourceReferences", "accessMode", "mountPath", "managedDataType", "volumeRequest", "volume", "properties"]).Nodup by decide +kernel)
instance : JZero J.taskWorkspace := struct_zero J.taskWorkspaceFields _ _ (fun _ => rfl)
instance : JEmpty J.taskWorkspace := struct_empty J.taskWorkspaceFields _ _

instance : JFieldsLawful J.taskFields := by unfold J.taskFields; infer_instance
instance : JLawful J.task :=
  struct_lawful J.taskFields _ _ (fun _ => rfl)
    (show (List.map foldKey ["bom-ref", "uid", "name", "description", "properties", "resourceReferences", "taskTypes", "trigger", "steps", "inputs", "outputs", "timeStart", "timeEnd", "workspaces", "runtimeTopology"]).Nodup by decide +kernel)
instance : JZero J.task := struct_zero J.taskFields _ _ (fun _ => rfl)
instance : JEmpty J.task := struct_empty J.taskFields _ _

instance : JFieldsLawful J.workflowFields := by unfold J.workflowFields; infer_instance
instance : JLawful J.workflow :=
  struct_lawful J.workflowFields _ _ (fun _ => rfl)
    (show (List.map foldKey ["bom-ref", "uid", "name", "description", "resourceReferences", "tasks", "taskDependencies", "taskTypes", "trigger", "steps", "inputs", "outputs", "timeStart", "timeEnd", "workspaces", "runtimeTopology", "properties"]).Nodup by decide +kernel)
instance : JZero J.workflow := struct_zero J.workflowFields _ _ (fun _ => rfl)
instance : JEmpty J.workflow := struct_empty J.workflowFields _ _

instance : JFieldsLawful J.formulaFields := by unfold J.formulaFields; infer_instance
instance : JLawful J.formula :=
  struct_lawful J.formulaFields _ _ (fun _ => rfl)
    (show (List.map foldKey ["bom-ref", "components", "services", "workflows", "properties"]).Nodup by decide +kernel)
instance : JZero J.formula := struct_zero J.formulaFields _ _ (fun _ => rfl)
instance : JEmpty J.formula := struct_empty J.formulaFields _ _

instance : JFieldsLawful J.lifecycleFields := by unfold J.lifecycleFields; infer_instance
instance : JLawful J.lifecycle :=
  struct_lawful J.lifecycleFields _ _ (fun _ => rfl)
    (show (List.map foldKey ["name", "phase", "description"]).Nodup by decide +kernel)
instance : JZero J.lifecycle := struct_zero J.lifecycleFields _ _ (fun _ => rfl)
instance : JEmpty J.lifecycle := struct_empty J.lifecycleFields _ _

instance : JFieldsLawful J.toolFields := by unfold J.toolFields; infer_instance
instance : JLawful J.tool :=
  struct_lawful J.toolFields _ _ (fun _ => rfl)
    (show (List.map foldKey ["vendor", "name", "version", "hashes", "externalReferences"]).Nodup by decide +kernel)
instance : JZero J.tool := struct_zero J.toolFields _ _ (fun _ => rfl)
instance : JEmpty J.tool := struct_empty J.toolFields _ _

instance : JFieldsLawful J.toolsChoiceFields := by unfold J.toolsChoiceFields; infer_instance
instance : JLawful J.toolsChoiceJSON :=
  struct_lawful J.toolsChoiceFields _ _ (fun _ => rfl)
    (show (List.map foldKey ["components", "services"]).Nodup by decide +kernel)
example : JLawful J.toolsChoice := inferInstance

instance : JFieldsLawful J.distributionConstraintsFields := by unfold J.distributionConstraintsFields; infer_instance
instance : JLawful J.distributionConstraints :=
  struct_lawful J.distributionConstraintsFields _ _ (fun _ => rfl)
    (show (List.map foldKey ["tlp"]).Nodup by decide +kernel)
instance : JZero J.distributionConstraints := struct_zero J.distributionConstraintsFields _ _ (fun _ => rfl)
instance : JEmpty J.distributionConstraints := struct_empty J.distributionConstraintsFields _ _

instance : JFieldsLawful J.metadataFields := by unfold J.metadataFields; infer_instance
instance : JLawful J.metadata :=
  struct_lawful J.metadataFields _ _ (fun _ => rfl)
    (show (List.map foldKey ["timestamp", "lifecycles", "tools", "authors", "component", "manufacture", "manufacturer", "supplier", "licenses", "properties", "distributionConstraints"]).Nodup by decide +kernel)
instance : JZero J.metadata := struct_zero J.metadataFields _ _ (fun _ => rfl)
instance : JEmpty J.metadata := struct_empty J.metadataFields _ _

instance : JFieldsLawful J.creditsFields := by unfold J.creditsFields; infer_instance
instance : JLawful J.credits :=
  struct_lawful J.creditsFields _ _ (fun _ => rfl)
    (show (List.map foldKey ["organizations", "individuals"]).Nodup by decide +kernel)
instance : JZero J.credits := struct_zero J.creditsFields _ _ (fun _ => rfl)
instance : JEmpty J.credits := struct_empty J.creditsFields _ _

instance : JFieldsLawful J.proofOfConceptFields := by unfold J.proofOfConceptFields; infer_instance
instance : JLawful J.proofOfConcept :=
  struct_lawful J.proofOfConceptFields _ _ (fun _ => rfl)
    (show (List.map foldKey ["reproductionSteps", "environment", "supportingMaterial"]).Nodup by decide +kernel)
instance : JZero J.proofOfConcept := struct_zero J.proofOfConceptFields _ _ (fun _ => rfl)
instance : JEmpty J.proofOfConcept := struct_empty J.proofOfConceptFields _ _

instance : JFieldsLawful J.vulnerabilityAnalysisFields := by unfold J.vulnerabilityAnalysisFields; infer_instance
instance : JLawful J.vulnerabilityAnalysis :=
  struct_lawful J.vulnerabilityAnalysisFields _ _ (fun _ => rfl)
    (show (List.map foldKey ["state", "justification", "response", "detail", "firstIssued", "lastUpdated"]).Nodup by decide +kernel)
instance : JZero J.vulnerabilityAnalysis := struct_zero J.vulnerabilityAnalysisFields _ _ (fun _ => rfl)
instance : JEmpty J.vulnerabilityAnalysis := struct_empty J.vulnerabilityAnalysisFields _ _

instance : JFieldsLawful J.vulnerabilityRatingFields := by unfold J.vulnerabilityRatingFields; infer_instance
instance : JLawful J.vulnerabilityRating :=
  struct_lawful J.vulnerabilityRatingFields _ _ (fun _ => rfl)
    (show (List.map foldKey ["source", "score", "severity", "method", "vector", "justification"]).Nodup by decide +kernel)
instance : JZero J.vulnerabilityRating := struct_zero J.vulnerabilityRatingFields _ _ (fun _ => rfl)
instance : JEmpty J.vulnerabilityRating := struct_empty J.vulnerabilityRatingFields _ _

instance : JFieldsLawful J.vulnerabilityReferenceFields := by unfold J.vulnerabilityReferenceFields; infer_instance
instance : JLawful J.vulnerabilityReference :=
  struct_lawful J.vulnerabilityReferenceFields _ _ (fun _ => rfl)
    (show (List.map foldKey ["id", "source"]).Nodup by decide +kernel)
instance : JZero J.vulnerabilityReference := struct_zero J.vulnerabilityReferenceFields _ _ (fun _ => rfl)
instance : JEmpty J.vulnerabilityReference := struct_empty J.vulnerabilityReferenceFields _ _

instance : JFieldsLawful J.vulnerabilityFields := by unfold J.vulnerabilityFields; infer_instance
instance : JLawful J.vulnerability :=
  struct_lawful J.vulnerabilityFields _ _ (fun _ => rfl)
    (show (List.map foldKey ["bom-ref", "id", "source", "references", "ratings", "cwes", "description", "detail", "recommendation", "workaround", "proofOfConcept", "advisories", "created", "published", "updated", "rejected", "credits", "tools", "analysis", "affects", "properties"]).Nodup by decide +kernel)
instance : JZero J.vulnerability := struct_zero J.vulnerabilityFields _ _ (fun _ => rfl)
instance : JEmpty J.vulnerability := struct_empty J.vulnerabilityFields _ _

instance : JFieldsLawful J.citationFields := by unfold J.citationFields; infer_instance
instance : JLawful J.citation :=
  struct_lawful J.citationFields _ _ (fun _ => rfl)
    (show (List.map foldKey ["bom-ref", "pointers", "expressions", "timestamp", "attributedTo", "process", "note", "signature"]).Nodup by decide +kernel)
instance : JZero J.citation := struct_zero J.citationFields _ _ (fun _ => rfl)
instance : JEmpty J.citation := struct_empty J.citationFields _ _

instance (C : JCodec Int) [JLawful C] [JZero C] : JFieldsLawful (J.bomFields C) := by unfold J.bomFields; infer_instance
instance (C : JCodec Int) [JLawful C] [JZero C] : JLawful (J.bomWith C) :=
  struct_lawful (J.bomFields C) _ _ (fun _ => rfl)
    (show (List.map foldKey ["$schema", "bomFormat", "specVersion", "serialNumber", "version", "metadata", "components", "services", "externalReferences", "dependencies", "compositions", "properties", "vulnerabilities", "annotations", "formulation", "declarations", "definitions", "citations", "signature"]).Nodup by decide +kernel)
instance (C : JCodec Int) [JLawful C] [JZero C] : JZero (J.bomWith C) := struct_zero (J.bomFields C) _ _ (fun _ => rfl)
instance (C : JCodec Int) : JEmpty (J.bomWith C) := struct_empty (J.bomFields C) _ _

end Verif
