import Verif.Json.Obs
import Verif.Json.StructLaws

/-!
# The codecs of the library look only at the values of known members

GENERATED by `tools/gen_json.py`; do not edit by hand.
-/

namespace Verif

open Spec (jsonNames)

variable [FloatIO]

set_option linter.unusedSectionVars false
set_option synthInstance.maxSize 4000
set_option synthInstance.maxHeartbeats 400000

theorem known_names {xs : List String} (is : List Nat) (h : xs.map some = is.map (jsonNames[·]?)) :
    ∀ n ∈ xs, n ∈ jsonNames := by
  intro n hn
  have : some n ∈ xs.map some := List.mem_map_of_mem hn
  rw [h] at this
  obtain ⟨i, -, hi⟩ := List.mem_map.1 this
  exact List.mem_of_getElem? hi

instance : JFieldsObs J.advisoryFields := by unfold J.advisoryFields; infer_instance
instance : JObs J.advisory :=
  struct_obs J.advisoryFields _ _
    (known_names [355, 368] rfl)

instance : JFieldsObs J.affectedVersionsFields := by unfold J.affectedVersionsFields; infer_instance
instance : JObs J.affectedVersions :=
  struct_obs J.affectedVersionsFields _ _
    (known_names [375, 278, 324] rfl)

instance : JFieldsObs J.affectsFields := by unfold J.affectsFields; infer_instance
instance : JObs J.affects :=
  struct_obs J.affectsFields _ _
    (known_names [284, 377] rfl)

instance : JFieldsObs J.attachedTextFields := by unfold J.attachedTextFields; infer_instance
instance : JObs J.attachedText :=
  struct_obs J.attachedTextFields _ _
    (known_names [79, 80, 118] rfl)

instance : JFieldsObs J.propertyFields := by unfold J.propertyFields; infer_instance
instance : JObs J.property :=
  struct_obs J.propertyFields _ _
    (known_names [219, 371] rfl)

instance : JFieldsObs J.componentDataContentsFields := by unfold J.componentDataContentsFields; infer_instance
instance : JObs J.componentDataContents :=
  struct_obs J.componentDataContentsFields _ _
    (known_names [34, 368, 265] rfl)

instance : JFieldsObs J.componentDataGraphicFields := by unfold J.componentDataGraphicFields; infer_instance
instance : JObs J.componentDataGraphic :=
  struct_obs J.componentDataGraphicFields _ _
    (known_names [219, 168] rfl)

instance : JFieldsObs J.componentDataGraphicsFields := by unfold J.componentDataGraphicsFields; infer_instance
instance : JObs J.componentDataGraphics :=
  struct_obs J.componentDataGraphicsFields _ _
    (known_names [108, 61] rfl)

instance : JFieldsObs J.organizationalContactFields := by unfold J.organizationalContactFields; infer_instance
instance : JObs J.organizationalContact :=
  struct_obs J.organizationalContactFields _ _
    (known_names [42, 219, 117, 255] rfl)

instance : JFieldsObs J.postalAddressFields := by unfold J.postalAddressFields; infer_instance
instance : JObs J.postalAddress :=
  struct_obs J.postalAddressFields _ _
    (known_names [42, 85, 286, 195, 257, 258, 327] rfl)

instance : JFieldsObs J.organizationalEntityFields := by unfold J.organizationalEntityFields; infer_instance
instance : JObs J.organizationalEntity :=
  struct_obs J.organizationalEntityFields _ _
    (known_names [42, 219, 8, 368, 78] rfl)

instance : JFieldsObs J.componentDataGovernanceResponsiblePartyFields := by unfold J.componentDataGovernanceResponsiblePartyFields; infer_instance
instance : JObs J.componentDataGovernanceResponsibleParty :=
  struct_obs J.componentDataGovernanceResponsiblePartyFields _ _
    (known_names [230, 78] rfl)

instance : JFieldsObs J.dataGovernanceFields := by unfold J.dataGovernanceFields; infer_instance
instance : JObs J.dataGovernance :=
  struct_obs J.dataGovernanceFields _ _
    (known_names [95, 326, 234] rfl)

instance : JFieldsObs J.componentDataFields := by unfold J.componentDataFields; infer_instance
instance : JObs J.componentData :=
  struct_obs J.componentDataFields _ _
    (known_names [42, 362, 219, 81, 58, 306, 158, 108, 156] rfl)

instance : JFieldsObs J.hashFields := by unfold J.hashFields; infer_instance
instance : JObs J.hash :=
  struct_obs J.hashFields _ _
    (known_names [13, 79] rfl)

instance : JFieldsObs J.relatedCryptographicAssetFields := by unfold J.relatedCryptographicAssetFields; infer_instance
instance : JObs J.relatedCryptographicAsset :=
  struct_obs J.relatedCryptographicAssetFields _ _
    (known_names [362, 284] rfl)

instance : JFieldsObs J.predefinedCertificateStateFields := by unfold J.predefinedCertificateStateFields; infer_instance
instance : JObs J.predefinedCertificateState :=
  struct_obs J.predefinedCertificateStateFields _ _
    (known_names [322, 281] rfl)

instance : JFieldsObs J.customCertificateStateFields := by unfold J.customCertificateStateFields; infer_instance
instance : JObs J.customCertificateState :=
  struct_obs J.customCertificateStateFields _ _
    (known_names [219, 108, 281] rfl)

example : JObs J.certificateState := inferInstance

instance : JFieldsObs J.commonCertificateExtensionFields := by unfold J.commonCertificateExtensionFields; infer_instance
instance : JObs J.commonCertificateExtension :=
  struct_obs J.commonCertificateExtensionFields _ _
    (known_names [67, 68] rfl)

instance : JFieldsObs J.customCertificateExtensionFields := by unfold J.customCertificateExtensionFields; infer_instance
instance : JObs J.customCertificateExtension :=
  struct_obs J.customCertificateExtensionFields _ _
    (known_names [96, 97] rfl)

example : JObs J.certificateExtension := inferInstance

instance : JFieldsObs J.certificatePropertiesFields := by unfold J.certificatePropertiesFields; infer_instance
instance : JObs J.certificateProperties :=
  struct_obs J.certificatePropertiesFields _ _
    (known_names [307, 328, 175, 222, 221, 313, 329, 48, 45, 47, 148, 51, 46, 289, 88, 4, 102, 300, 111] rfl)

instance : JFieldsObs J.cryptoAlgorithmPropertiesFields := by unfold J.cryptoAlgorithmPropertiesFields; infer_instance
instance : JObs J.cryptoAlgorithmProperties :=
  struct_obs J.cryptoAlgorithmPropertiesFields _ _
    (known_names [261, 237, 15, 94, 116, 134, 169, 52, 211, 236, 91, 57, 220] rfl)

instance : JFieldsObs J.cipherSuiteFields := by unfold J.cipherSuiteFields; infer_instance
instance : JObs J.cipherSuite :=
  struct_obs J.cipherSuiteFields _ _
    (known_names [219, 18, 165, 357, 358] rfl)

instance : JFieldsObs J.ikev2AuthFields := by unfold J.ikev2AuthFields; infer_instance
instance : JObs J.ikev2Auth :=
  have : JObs (JCodec.struct J.ikev2AuthFields IKEv2Auth.toP IKEv2Auth.ofP) :=
    struct_obs J.ikev2AuthFields _ _
      (known_names [219, 14] rfl)
  ikev2_obs _ _

instance : JFieldsObs J.ikev2EncFields := by unfold J.ikev2EncFields; infer_instance
instance : JObs J.ikev2Enc :=
  have : JObs (JCodec.struct J.ikev2EncFields IKEv2Enc.toP IKEv2Enc.ofP) :=
    struct_obs J.ikev2EncFields _ _
      (known_names [219, 180, 14] rfl)
  ikev2_obs _ _

instance : JFieldsObs J.ikev2IntegFields := by unfold J.ikev2IntegFields; infer_instance
instance : JObs J.ikev2Integ :=
  have : JObs (JCodec.struct J.ikev2IntegFields IKEv2Integ.toP IKEv2Integ.ofP) :=
    struct_obs J.ikev2IntegFields _ _
      (known_names [219, 14] rfl)
  ikev2_obs _ _

instance : JFieldsObs J.ikev2KeFields := by unfold J.ikev2KeFields; infer_instance
instance : JObs J.ikev2Ke :=
  have : JObs (JCodec.struct J.ikev2KeFields IKEv2Ke.toP IKEv2Ke.ofP) :=
    struct_obs J.ikev2KeFields _ _
      (known_names [159, 14] rfl)
  ikev2_obs _ _

instance : JFieldsObs J.ikev2PrfFields := by unfold J.ikev2PrfFields; infer_instance
instance : JObs J.ikev2Prf :=
  have : JObs (JCodec.struct J.ikev2PrfFields IKEv2Prf.toP IKEv2Prf.ofP) :=
    struct_obs J.ikev2PrfFields _ _
      (known_names [219, 14] rfl)
  ikev2_obs _ _

instance : JFieldsObs J.ikev2TransformTypesFields := by unfold J.ikev2TransformTypesFields; infer_instance
instance : JObs J.ikev2TransformTypes :=
  struct_obs J.ikev2TransformTypesFields _ _
    (known_names [119, 260, 173, 178, 128, 37] rfl)

instance : JFieldsObs J.cryptoProtocolPropertiesFields := by unfold J.cryptoProtocolPropertiesFields; infer_instance
instance : JObs J.cryptoProtocolProperties :=
  struct_obs J.cryptoProtocolPropertiesFields _ _
    (known_names [362, 375, 54, 167, 93, 289] rfl)

instance : JFieldsObs J.securedByFields := by unfold J.securedByFields; infer_instance
instance : JObs J.securedBy :=
  struct_obs J.securedByFields _ _
    (known_names [202, 17] rfl)

instance : JFieldsObs J.relatedCryptoMaterialPropertiesFields := by unfold J.relatedCryptoMaterialPropertiesFields; infer_instance
instance : JObs J.relatedCryptoMaterialProperties :=
  struct_obs J.relatedCryptoMaterialPropertiesFields _ _
    (known_names [362, 163, 322, 17, 88, 4, 365, 136, 371, 315, 151, 305, 148, 289] rfl)

instance : JFieldsObs J.cryptoPropertiesFields := by unfold J.cryptoPropertiesFields; infer_instance
instance : JObs J.cryptoProperties :=
  struct_obs J.cryptoPropertiesFields _ _
    (known_names [33, 16, 50, 288, 267, 227] rfl)

instance : JFieldsObs J.callstackFrameFields := by unfold J.callstackFrameFields; infer_instance
instance : JObs J.callstackFrame :=
  struct_obs J.callstackFrameFields _ _
    (known_names [235, 216, 155, 238, 193, 62, 154] rfl)

instance : JFieldsObs J.callstackFields := by unfold J.callstackFields; infer_instance
instance : JObs J.callstack :=
  struct_obs J.callstackFields _ _
    (known_names [153] rfl)

instance : JFieldsObs J.copyrightFields := by unfold J.copyrightFields; infer_instance
instance : JObs J.copyright :=
  struct_obs J.copyrightFields _ _
    (known_names [348] rfl)

instance : JFieldsObs J.evidenceIdentityMethodFields := by unfold J.evidenceIdentityMethodFields; infer_instance
instance : JObs J.evidenceIdentityMethod :=
  struct_obs J.evidenceIdentityMethodFields _ _
    (known_names [347, 74, 371] rfl)

instance : JFieldsObs J.evidenceIdentityFields := by unfold J.evidenceIdentityFields; infer_instance
instance : JObs J.evidenceIdentity :=
  struct_obs J.evidenceIdentityFields _ _
    (known_names [146, 74, 72, 207, 359] rfl)

example : JObs J.evidenceIdentityChoice := inferInstance

instance : JFieldsObs J.evidenceOccurrenceFields := by unfold J.evidenceOccurrenceFields; infer_instance
instance : JObs J.evidenceOccurrence :=
  struct_obs J.evidenceOccurrenceFields _ _
    (known_names [42, 196, 193, 226, 336, 7] rfl)

instance : JFieldsObs J.organizationalEntityOrContactFields := by unfold J.organizationalEntityOrContactFields; infer_instance
instance : JObs J.organizationalEntityOrContact :=
  struct_obs J.organizationalEntityOrContactFields _ _
    (known_names [230, 170] rfl)

instance : JFieldsObs J.licensingFields := by unfold J.licensingFields; infer_instance
instance : JObs J.licensing :=
  struct_obs J.licensingFields _ _
    (known_names [20, 191, 188, 275, 274, 187, 182, 135] rfl)

instance : JFieldsObs J.licenseFields := by unfold J.licenseFields; infer_instance
instance : JObs J.licenseAlias :=
  struct_obs J.licenseFields _ _
    (known_names [42, 163, 219, 3, 348, 368, 190, 265] rfl)
instance : JObs J.license := ⟨fun j j' a h => JObs.obs (c := J.licenseAlias) j j' a h⟩

instance : JFieldsObs J.licenseExpressionDetailFields := by unfold J.licenseExpressionDetailFields; infer_instance
instance : JObs J.licenseExpressionDetail :=
  struct_obs J.licenseExpressionDetailFields _ _
    (known_names [186, 42, 348, 368] rfl)

instance : JFieldsObs J.licenseChoiceFields := by unfold J.licenseChoiceFields; infer_instance
instance : JObs J.licenseChoice :=
  struct_obs J.licenseChoiceFields _ _
    (known_names [185, 138, 139, 3, 42, 190, 265] rfl)

instance : JFieldsObs J.evidenceFields := by unfold J.evidenceFields; infer_instance
instance : JObs J.evidence :=
  struct_obs J.evidenceFields _ _
    (known_names [166, 225, 44, 189, 82] rfl)

instance : JFieldsObs J.externalReferenceFields := by unfold J.externalReferenceFields; infer_instance
instance : JObs J.externalReference :=
  struct_obs J.externalReferenceFields _ _
    (known_names [368, 64, 162, 362, 265] rfl)

instance : JFieldsObs J.jsfPublicKeyFields := by unfold J.jsfPublicKeyFields; infer_instance
instance : JObs J.jsfPublicKey :=
  struct_obs J.jsfPublicKeyFields _ _
    (known_names [181, 90, 384, 386, 218, 115] rfl)

instance : JFieldsObs J.jsfSignerFields := by unfold J.jsfSignerFields; infer_instance
instance : JObs J.jsfSigner :=
  struct_obs J.jsfSignerFields _ _
    (known_names [14, 179, 270, 49, 132, 371] rfl)

instance : JFieldsObs J.jsfSignatureFields := by unfold J.jsfSignatureFields; infer_instance
instance : JObs J.jsfSignature :=
  struct_obs J.jsfSignatureFields _ _
    (known_names [314, 53] rfl)

instance : JFieldsObs J.mlModelCO2MeasureFields := by unfold J.mlModelCO2MeasureFields; infer_instance
instance : JObs J.mlModelCO2Measure :=
  struct_obs J.mlModelCO2MeasureFields _ _
    (known_names [371, 364] rfl)

instance : JFieldsObs J.mlModelEnergyMeasureFields := by unfold J.mlModelEnergyMeasureFields; infer_instance
instance : JObs J.mlModelEnergyMeasure :=
  struct_obs J.mlModelEnergyMeasureFields _ _
    (known_names [371, 364] rfl)

instance : JFieldsObs J.mlModelEnergyProviderFields := by unfold J.mlModelEnergyProviderFields; infer_instance
instance : JObs J.mlModelEnergyProvider :=
  struct_obs J.mlModelEnergyProviderFields _ _
    (known_names [42, 108, 230, 124, 122, 142] rfl)

instance : JFieldsObs J.mlModelEnergyConsumptionFields := by unfold J.mlModelEnergyConsumptionFields; infer_instance
instance : JObs J.mlModelEnergyConsumption :=
  struct_obs J.mlModelEnergyConsumptionFields _ _
    (known_names [5, 123, 6, 59, 60, 265] rfl)

instance : JFieldsObs J.mlModelCardEnvironmentalConsiderationsFields := by unfold J.mlModelCardEnvironmentalConsiderationsFields; infer_instance
instance : JObs J.mlModelCardEnvironmentalConsiderations :=
  struct_obs J.mlModelCardEnvironmentalConsiderationsFields _ _
    (known_names [121, 265] rfl)

instance : JFieldsObs J.mlModelCardEthicalConsiderationFields := by unfold J.mlModelCardEthicalConsiderationFields; infer_instance
instance : JObs J.mlModelCardEthicalConsideration :=
  struct_obs J.mlModelCardEthicalConsiderationFields _ _
    (known_names [219, 210] rfl)

instance : JFieldsObs J.mlModelCardFairnessAssessmentFields := by unfold J.mlModelCardFairnessAssessmentFields; infer_instance
instance : JObs J.mlModelCardFairnessAssessment :=
  struct_obs J.mlModelCardFairnessAssessmentFields _ _
    (known_names [160, 41, 161, 210] rfl)

instance : JFieldsObs J.mlModelCardConsiderationsFields := by unfold J.mlModelCardConsiderationsFields; infer_instance
instance : JObs J.mlModelCardConsiderations :=
  struct_obs J.mlModelCardConsiderationsFields _ _
    (known_names [370, 369, 346, 252, 129, 127, 143] rfl)

example : JObs J.mlDatasetChoice := inferInstance

instance : JFieldsObs J.mlInputOutputParametersFields := by unfold J.mlInputOutputParametersFields; infer_instance
instance : JObs J.mlInputOutputParameters :=
  struct_obs J.mlInputOutputParametersFields _ _
    (known_names [151] rfl)

instance : JFieldsObs J.mlModelParametersApproachFields := by unfold J.mlModelParametersApproachFields; infer_instance
instance : JObs J.mlModelParametersApproach :=
  struct_obs J.mlModelParametersApproachFields _ _
    (known_names [362] rfl)

instance : JFieldsObs J.mlModelParametersFields := by unfold J.mlModelParametersFields; infer_instance
instance : JObs J.mlModelParameters :=
  struct_obs J.mlModelParametersFields _ _
    (known_names [26, 342, 27, 212, 101, 172, 232] rfl)

instance : JFieldsObs J.mlPerformanceMetricConfidenceIntervalFields := by unfold J.mlPerformanceMetricConfidenceIntervalFields; infer_instance
instance : JObs J.mlPerformanceMetricConfidenceInterval :=
  struct_obs J.mlPerformanceMetricConfidenceIntervalFields _ _
    (known_names [197, 367] rfl)

instance : JFieldsObs J.mlPerformanceMetricFields := by unfold J.mlPerformanceMetricFields; infer_instance
instance : JObs J.mlPerformanceMetric :=
  struct_obs J.mlPerformanceMetricFields _ _
    (known_names [362, 371, 317, 75] rfl)

instance : JFieldsObs J.mlQuantitativeAnalysisFields := by unfold J.mlQuantitativeAnalysisFields; infer_instance
instance : JObs J.mlQuantitativeAnalysis :=
  struct_obs J.mlQuantitativeAnalysisFields _ _
    (known_names [251, 158] rfl)

instance : JFieldsObs J.mlModelCardFields := by unfold J.mlModelCardFields; infer_instance
instance : JObs J.mlModelCard :=
  struct_obs J.mlModelCardFields _ _
    (known_names [42, 214, 277, 77] rfl)

instance : JFieldsObs J.identifiableActionFields := by unfold J.identifiableActionFields; infer_instance
instance : JObs J.identifiableAction :=
  struct_obs J.identifiableActionFields _ _
    (known_names [354, 219, 117] rfl)

instance : JFieldsObs J.commitFields := by unfold J.commitFields; infer_instance
instance : JObs J.commit :=
  struct_obs J.commitFields _ _
    (known_names [363, 368, 39, 66, 204] rfl)

instance : JFieldsObs J.diffFields := by unfold J.diffFields; infer_instance
instance : JObs J.diff :=
  struct_obs J.diffFields _ _
    (known_names [348, 368] rfl)

instance : JFieldsObs J.sourceFields := by unfold J.sourceFields; infer_instance
instance : JObs J.source :=
  struct_obs J.sourceFields _ _
    (known_names [219, 368] rfl)

instance : JFieldsObs J.issueFields := by unfold J.issueFields; infer_instance
instance : JObs J.issue :=
  struct_obs J.issueFields _ _
    (known_names [163, 219, 108, 319, 285, 362] rfl)

instance : JFieldsObs J.patchFields := by unfold J.patchFields; infer_instance
instance : JObs J.patch :=
  struct_obs J.patchFields _ _
    (known_names [113, 295, 362] rfl)

instance (C : JCodec Component) [JObs C] : JFieldsObs (J.pedigreeFields C) := by unfold J.pedigreeFields; infer_instance
instance (C : JCodec Component) [JObs C] : JObs (J.pedigree C) :=
  struct_obs (J.pedigreeFields C) _ _
    (known_names [22, 107, 372, 65, 241, 224] rfl)

instance : JFieldsObs J.noteFields := by unfold J.noteFields; infer_instance
instance : JObs J.note :=
  struct_obs J.noteFields _ _
    (known_names [194, 348] rfl)

instance : JFieldsObs J.releaseNotesFields := by unfold J.releaseNotesFields; infer_instance
instance : JObs J.releaseNotes :=
  struct_obs J.releaseNotesFields _ _
    (known_names [362, 355, 145, 318, 108, 354, 19, 339, 295, 224, 265] rfl)

instance : JFieldsObs J.swidFields := by unfold J.swidFields; infer_instance
instance : JObs J.swid :=
  struct_obs J.swidFields _ _
    (known_names [348, 368, 337, 219, 375, 338, 240] rfl)

example : JObs J.asserterChoice := inferInstance

instance : JFieldsObs J.patentAssertionFields := by unfold J.patentAssertionFields; infer_instance
instance : JObs J.patentAssertion :=
  struct_obs J.patentAssertionFields _ _
    (known_names [42, 247, 30, 29, 224] rfl)

instance (C : JCodec Component) [JObs C] : JFieldsObs (J.componentFields C) := by unfold J.componentFields; infer_instance
instance (C : JCodec Component) [JObs C] : JObs (J.componentWith C) :=
  struct_obs (J.componentFields C) _ _
    (known_names [42, 208, 362, 332, 200, 39, 40, 273, 159, 219, 375, 108, 303, 162, 189, 82, 86, 276, 228, 334, 335, 215, 250, 142, 265, 70, 131, 290, 213, 99, 92, 339, 174, 242, 376, 312] rfl)
instance : JObs J.component := knot_obs component_knotted fun n => by
  induction n with
  | zero => exact inferInstanceAs (JObs (J.bottom _))
  | succ n ih => exact inferInstanceAs (JObs (J.componentWith (J.componentN n)))

instance : JFieldsObs J.dataClassificationFields := by unfold J.dataClassificationFields; infer_instance
instance : JObs J.dataClassification :=
  struct_obs J.dataClassificationFields _ _
    (known_names [150, 58, 219, 108, 156, 319, 110] rfl)

instance (C : JCodec Service) [JObs C] : JFieldsObs (J.serviceFields C) := by unfold J.serviceFields; infer_instance
instance (C : JCodec Service) [JObs C] : JObs (J.serviceWith C) :=
  struct_obs (J.serviceFields C) _ _
    (known_names [42, 268, 159, 219, 375, 108, 120, 38, 385, 99, 189, 142, 265, 309, 290, 339, 361, 242, 312] rfl)
instance : JObs J.service := knot_obs service_knotted fun n => by
  induction n with
  | zero => exact inferInstanceAs (JObs (J.bottom _))
  | succ n ih => exact inferInstanceAs (JObs (J.serviceWith (J.serviceN n)))

instance : JFieldsObs J.annotatorFields := by unfold J.annotatorFields; infer_instance
instance : JObs J.annotator :=
  struct_obs J.annotatorFields _ _
    (known_names [230, 170, 69, 308] rfl)

instance : JFieldsObs J.annotationFields := by unfold J.annotationFields; infer_instance
instance : JObs J.annotation :=
  struct_obs J.annotationFields _ _
    (known_names [42, 330, 24, 354, 348, 312] rfl)

instance : JFieldsObs J.assessorFields := by unfold J.assessorFields; infer_instance
instance : JObs J.assessor :=
  struct_obs J.assessorFields _ _
    (known_names [42, 349, 230] rfl)

instance : JFieldsObs J.attestationConformanceFields := by unfold J.attestationConformanceFields; infer_instance
instance : JObs J.attestationConformance :=
  struct_obs J.attestationConformanceFields _ _
    (known_names [304, 280, 209] rfl)

instance : JFieldsObs J.attestationConfidenceFields := by unfold J.attestationConfidenceFields; infer_instance
instance : JObs J.attestationConfidence :=
  struct_obs J.attestationConfidenceFields _ _
    (known_names [304, 280] rfl)

instance : JFieldsObs J.attestationMapFields := by unfold J.attestationMapFields; infer_instance
instance : JObs J.attestationMap :=
  struct_obs J.attestationMapFields _ _
    (known_names [293, 56, 83, 76, 74] rfl)

instance : JFieldsObs J.attestationFields := by unfold J.attestationFields; infer_instance
instance : JObs J.attestation :=
  struct_obs J.attestationFields _ _
    (known_names [331, 31, 201, 312] rfl)

instance : JFieldsObs J.compositionFields := by unfold J.compositionFields; infer_instance
instance : JObs J.composition :=
  struct_obs J.compositionFields _ _
    (known_names [42, 12, 28, 105, 380, 312] rfl)

instance : JFieldsObs J.claimFields := by unfold J.claimFields; infer_instance
instance : JObs J.claim :=
  struct_obs J.claimFields _ _
    (known_names [42, 340, 259, 209, 282, 131, 84, 142, 312] rfl)

instance : JFieldsObs J.evidenceDataContentsFields := by unfold J.evidenceDataContentsFields; infer_instance
instance : JObs J.evidenceDataContents :=
  struct_obs J.evidenceDataContentsFields _ _
    (known_names [34, 368] rfl)

instance : JFieldsObs J.evidenceDataFields := by unfold J.evidenceDataFields; infer_instance
instance : JObs J.evidenceData :=
  struct_obs J.evidenceDataFields _ _
    (known_names [219, 81, 58, 306, 156] rfl)

instance : JFieldsObs J.declarationEvidenceFields := by unfold J.declarationEvidenceFields; infer_instance
instance : JObs J.declarationEvidence :=
  struct_obs J.declarationEvidenceFields _ _
    (known_names [42, 266, 108, 99, 87, 137, 39, 299, 312] rfl)

instance : JFieldsObs J.targetsFields := by unfold J.targetsFields; infer_instance
instance : JObs J.targets :=
  struct_obs J.targetsFields _ _
    (known_names [231, 70, 309] rfl)

instance : JFieldsObs J.signatoryFields := by unfold J.signatoryFields; infer_instance
instance : JObs J.signatory :=
  struct_obs J.signatoryFields _ _
    (known_names [219, 301, 312, 230, 141] rfl)

instance : JFieldsObs J.affirmationFields := by unfold J.affirmationFields; infer_instance
instance : JObs J.affirmation :=
  struct_obs J.affirmationFields _ _
    (known_names [323, 311, 312] rfl)

instance : JFieldsObs J.declarationsFields := by unfold J.declarationsFields; infer_instance
instance : JObs J.declarations :=
  struct_obs J.declarationsFields _ _
    (known_names [32, 35, 56, 131, 341, 11, 312] rfl)

instance : JFieldsObs J.priorityApplicationFields := by unfold J.priorityApplicationFields; infer_instance
instance : JObs J.priorityApplication :=
  struct_obs J.priorityApplicationFields _ _
    (known_names [25, 176, 147] rfl)

instance : JFieldsObs J.patentFields := by unfold J.patentFields; infer_instance
instance : JObs J.patent :=
  struct_obs J.patentFields _ _
    (known_names [42, 246, 25, 176, 262, 271, 355, 1, 147, 157, 244, 245, 243, 142] rfl)

instance : JFieldsObs J.patentFamilyFields := by unfold J.patentFamilyFields; infer_instance
instance : JObs J.patentFamily :=
  struct_obs J.patentFamilyFields _ _
    (known_names [42, 144, 262, 203, 142] rfl)

example : JObs J.patentChoice := inferInstance

instance : JFieldsObs J.standardRequirementFields := by unfold J.standardRequirementFields; infer_instance
instance : JObs J.standardRequirement :=
  struct_obs J.standardRequirementFields _ _
    (known_names [42, 164, 355, 348, 109, 229, 239, 265, 142] rfl)

instance : JFieldsObs J.standardLevelFields := by unfold J.standardLevelFields; infer_instance
instance : JObs J.standardLevel :=
  struct_obs J.standardLevelFields _ _
    (known_names [42, 164, 355, 108, 294] rfl)

instance : JFieldsObs J.standardDefinitionFields := by unfold J.standardDefinitionFields; infer_instance
instance : JObs J.standardDefinition :=
  struct_obs J.standardDefinitionFields _ _
    (known_names [42, 219, 375, 108, 233, 294, 184, 142, 312] rfl)

instance : JFieldsObs J.definitionsFields := by unfold J.definitionsFields; infer_instance
instance : JObs J.definitions :=
  struct_obs J.definitionsFields _ _
    (known_names [321, 248] rfl)

instance : JFieldsObs J.dependencyFields := by unfold J.dependencyFields; infer_instance
instance : JObs J.dependency :=
  struct_obs J.dependencyFields _ _
    (known_names [284, 106, 269] rfl)

instance : JFieldsObs J.resourceReferenceChoiceFields := by unfold J.resourceReferenceChoiceFields; infer_instance
instance : JObs J.resourceReferenceChoice :=
  struct_obs J.resourceReferenceChoiceFields _ _
    (known_names [284, 141] rfl)

example : JObs J.environmentVariableChoice := inferInstance

instance : JFieldsObs J.parameterFields := by unfold J.parameterFields; infer_instance
instance : JObs J.parameter :=
  struct_obs J.parameterFields _ _
    (known_names [219, 371, 100] rfl)

instance : JFieldsObs J.taskInputFields := by unfold J.taskInputFields; infer_instance
instance : JObs J.taskInput :=
  struct_obs J.taskInputFields _ _
    (known_names [296, 238, 126, 99, 319, 340, 265] rfl)

instance : JFieldsObs J.taskOutputFields := by unfold J.taskOutputFields; infer_instance
instance : JObs J.taskOutput :=
  struct_obs J.taskOutputFields _ _
    (known_names [296, 238, 126, 99, 362, 319, 340, 265] rfl)

instance : JFieldsObs J.taskCommandFields := by unfold J.taskCommandFields; infer_instance
instance : JObs J.taskCommand :=
  struct_obs J.taskCommandFields _ _
    (known_names [133, 265] rfl)

instance : JFieldsObs J.taskStepFields := by unfold J.taskStepFields; infer_instance
instance : JObs J.taskStep :=
  struct_obs J.taskStepFields _ _
    (known_names [219, 108, 63, 265] rfl)

instance : JFieldsObs J.eventFields := by unfold J.eventFields; infer_instance
instance : JObs J.event :=
  struct_obs J.eventFields _ _
    (known_names [363, 108, 352, 99, 319, 340, 265] rfl)

instance : JFieldsObs J.taskTriggerConditionFields := by unfold J.taskTriggerConditionFields; infer_instance
instance : JObs J.taskTriggerCondition :=
  struct_obs J.taskTriggerConditionFields _ _
    (known_names [108, 138, 265] rfl)

instance : JFieldsObs J.taskTriggerFields := by unfold J.taskTriggerFields; infer_instance
instance : JObs J.taskTrigger :=
  struct_obs J.taskTriggerFields _ _
    (known_names [42, 363, 219, 108, 297, 362, 130, 73, 350, 172, 232, 265] rfl)

instance : JFieldsObs J.volumeFields := by unfold J.volumeFields; infer_instance
instance : JObs J.volume :=
  struct_obs J.volumeFields _ _
    (known_names [363, 219, 211, 249, 316, 253, 291, 265] rfl)

instance : JFieldsObs J.taskWorkspaceFields := by unfold J.taskWorkspaceFields; infer_instance
instance : JObs J.taskWorkspace :=
  struct_obs J.taskWorkspaceFields _ _
    (known_names [42, 363, 219, 19, 108, 297, 2, 217, 198, 379, 378, 265] rfl)

instance : JFieldsObs J.taskFields := by unfold J.taskFields; infer_instance
instance : JObs J.task :=
  struct_obs J.taskFields _ _
    (known_names [42, 363, 219, 108, 265, 297, 344, 360, 325, 172, 232, 353, 351, 383, 302] rfl)

instance : JFieldsObs J.workflowFields := by unfold J.workflowFields; infer_instance
instance : JObs J.workflow :=
  struct_obs J.workflowFields _ _
    (known_names [42, 363, 219, 108, 297, 345, 343, 344, 360, 325, 172, 232, 353, 351, 383, 302, 265] rfl)

instance : JFieldsObs J.formulaFields := by unfold J.formulaFields; infer_instance
instance : JObs J.formula :=
  struct_obs J.formulaFields _ _
    (known_names [42, 70, 309, 382, 265] rfl)

instance : JFieldsObs J.lifecycleFields := by unfold J.lifecycleFields; infer_instance
instance : JObs J.lifecycle :=
  struct_obs J.lifecycleFields _ _
    (known_names [219, 254, 108] rfl)

instance : JFieldsObs J.toolFields := by unfold J.toolFields; infer_instance
instance : JObs J.tool :=
  struct_obs J.toolFields _ _
    (known_names [374, 219, 375, 162, 142] rfl)

instance : JFieldsObs J.toolsChoiceFields := by unfold J.toolsChoiceFields; infer_instance
instance : JObs J.toolsChoiceJSON :=
  struct_obs J.toolsChoiceFields _ _
    (known_names [70, 309] rfl)
example : JObs J.toolsChoice := inferInstance

instance : JFieldsObs J.distributionConstraintsFields := by unfold J.distributionConstraintsFields; infer_instance
instance : JObs J.distributionConstraints :=
  struct_obs J.distributionConstraintsFields _ _
    (known_names [356] rfl)

instance : JFieldsObs J.metadataFields := by unfold J.metadataFields; infer_instance
instance : JObs J.metadata :=
  struct_obs J.metadataFields _ _
    (known_names [354, 192, 359, 40, 69, 199, 200, 332, 189, 265, 114] rfl)

instance : JFieldsObs J.creditsFields := by unfold J.creditsFields; infer_instance
instance : JObs J.credits :=
  struct_obs J.creditsFields _ _
    (known_names [231, 171] rfl)

instance : JFieldsObs J.proofOfConceptFields := by unfold J.proofOfConceptFields; infer_instance
instance : JObs J.proofOfConcept :=
  struct_obs J.proofOfConceptFields _ _
    (known_names [292, 125, 333] rfl)

instance : JFieldsObs J.vulnerabilityAnalysisFields := by unfold J.vulnerabilityAnalysisFields; infer_instance
instance : JObs J.vulnerabilityAnalysis :=
  struct_obs J.vulnerabilityAnalysisFields _ _
    (known_names [322, 177, 298, 112, 149, 183] rfl)

instance : JFieldsObs J.vulnerabilityRatingFields := by unfold J.vulnerabilityRatingFields; infer_instance
instance : JObs J.vulnerabilityRating :=
  struct_obs J.vulnerabilityRatingFields _ _
    (known_names [319, 304, 310, 206, 373, 177] rfl)

instance : JFieldsObs J.vulnerabilityReferenceFields := by unfold J.vulnerabilityReferenceFields; infer_instance
instance : JObs J.vulnerabilityReference :=
  struct_obs J.vulnerabilityReferenceFields _ _
    (known_names [163, 319] rfl)

instance : JFieldsObs J.vulnerabilityFields := by unfold J.vulnerabilityFields; infer_instance
instance : JObs J.vulnerability :=
  struct_obs J.vulnerabilityFields _ _
    (known_names [42, 163, 319, 285, 279, 98, 108, 112, 283, 381, 264, 9, 87, 272, 366, 287, 89, 359, 21, 10, 265] rfl)

instance : JFieldsObs J.citationFields := by unfold J.citationFields; infer_instance
instance : JObs J.citation :=
  struct_obs J.citationFields _ _
    (known_names [42, 256, 140, 354, 36, 263, 223, 312] rfl)

instance : JFieldsObs (J.bomFields J.specVersion) := by unfold J.bomFields; infer_instance
instance : JObs (J.bomWith J.specVersion) :=
  struct_obs (J.bomFields J.specVersion) _ _
    (known_names [0, 43, 320, 307, 375, 205, 70, 309, 142, 105, 71, 265, 380, 23, 152, 103, 104, 55, 312] rfl)

end Verif
