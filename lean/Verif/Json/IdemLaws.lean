import Verif.Json.Idem
import Verif.Json.StructLaws

/-!
# Decoding a value again into what it was decoded into changes nothing: every codec

GENERATED by `tools/gen_blind.py`; do not edit by hand.
-/

namespace Verif

variable [FloatIO]

set_option linter.unusedSectionVars false
set_option synthInstance.maxSize 4000
set_option synthInstance.maxHeartbeats 400000

instance : JFieldsIdem J.advisoryFields := by unfold J.advisoryFields; infer_instance
instance : JIdem J.advisory :=
  struct_idem J.advisoryFields _ _ fun _ => rfl

instance : JFieldsIdem J.affectedVersionsFields := by unfold J.affectedVersionsFields; infer_instance
instance : JIdem J.affectedVersions :=
  struct_idem J.affectedVersionsFields _ _ fun _ => rfl

instance : JFieldsIdem J.affectsFields := by unfold J.affectsFields; infer_instance
instance : JIdem J.affects :=
  struct_idem J.affectsFields _ _ fun _ => rfl

instance : JFieldsIdem J.attachedTextFields := by unfold J.attachedTextFields; infer_instance
instance : JIdem J.attachedText :=
  struct_idem J.attachedTextFields _ _ fun _ => rfl

instance : JFieldsIdem J.propertyFields := by unfold J.propertyFields; infer_instance
instance : JIdem J.property :=
  struct_idem J.propertyFields _ _ fun _ => rfl

instance : JFieldsIdem J.componentDataContentsFields := by unfold J.componentDataContentsFields; infer_instance
instance : JIdem J.componentDataContents :=
  struct_idem J.componentDataContentsFields _ _ fun _ => rfl

instance : JFieldsIdem J.componentDataGraphicFields := by unfold J.componentDataGraphicFields; infer_instance
instance : JIdem J.componentDataGraphic :=
  struct_idem J.componentDataGraphicFields _ _ fun _ => rfl

instance : JFieldsIdem J.componentDataGraphicsFields := by unfold J.componentDataGraphicsFields; infer_instance
instance : JIdem J.componentDataGraphics :=
  struct_idem J.componentDataGraphicsFields _ _ fun _ => rfl

instance : JFieldsIdem J.organizationalContactFields := by unfold J.organizationalContactFields; infer_instance
instance : JIdem J.organizationalContact :=
  struct_idem J.organizationalContactFields _ _ fun _ => rfl

instance : JFieldsIdem J.postalAddressFields := by unfold J.postalAddressFields; infer_instance
instance : JIdem J.postalAddress :=
  struct_idem J.postalAddressFields _ _ fun _ => rfl

instance : JFieldsIdem J.organizationalEntityFields := by unfold J.organizationalEntityFields; infer_instance
instance : JIdem J.organizationalEntity :=
  struct_idem J.organizationalEntityFields _ _ fun _ => rfl

instance : JFieldsIdem J.componentDataGovernanceResponsiblePartyFields := by unfold J.componentDataGovernanceResponsiblePartyFields; infer_instance
instance : JIdem J.componentDataGovernanceResponsibleParty :=
  struct_idem J.componentDataGovernanceResponsiblePartyFields _ _ fun _ => rfl

instance : JFieldsIdem J.dataGovernanceFields := by unfold J.dataGovernanceFields; infer_instance
instance : JIdem J.dataGovernance :=
  struct_idem J.dataGovernanceFields _ _ fun _ => rfl

instance : JFieldsIdem J.componentDataFields := by unfold J.componentDataFields; infer_instance
instance : JIdem J.componentData :=
  struct_idem J.componentDataFields _ _ fun _ => rfl

instance : JFieldsIdem J.hashFields := by unfold J.hashFields; infer_instance
instance : JIdem J.hash :=
  struct_idem J.hashFields _ _ fun _ => rfl

instance : JFieldsIdem J.relatedCryptographicAssetFields := by unfold J.relatedCryptographicAssetFields; infer_instance
instance : JIdem J.relatedCryptographicAsset :=
  struct_idem J.relatedCryptographicAssetFields _ _ fun _ => rfl

instance : JFieldsIdem J.predefinedCertificateStateFields := by unfold J.predefinedCertificateStateFields; infer_instance
instance : JIdem J.predefinedCertificateState :=
  struct_idem J.predefinedCertificateStateFields _ _ fun _ => rfl

instance : JFieldsIdem J.customCertificateStateFields := by unfold J.customCertificateStateFields; infer_instance
instance : JIdem J.customCertificateState :=
  struct_idem J.customCertificateStateFields _ _ fun _ => rfl

example : JIdem J.certificateState := inferInstance

instance : JFieldsIdem J.commonCertificateExtensionFields := by unfold J.commonCertificateExtensionFields; infer_instance
instance : JIdem J.commonCertificateExtension :=
  struct_idem J.commonCertificateExtensionFields _ _ fun _ => rfl

instance : JFieldsIdem J.customCertificateExtensionFields := by unfold J.customCertificateExtensionFields; infer_instance
instance : JIdem J.customCertificateExtension :=
  struct_idem J.customCertificateExtensionFields _ _ fun _ => rfl

example : JIdem J.certificateExtension := inferInstance

instance : JFieldsIdem J.certificatePropertiesFields := by unfold J.certificatePropertiesFields; infer_instance
instance : JIdem J.certificateProperties :=
  struct_idem J.certificatePropertiesFields _ _ fun _ => rfl

instance : JFieldsIdem J.cryptoAlgorithmPropertiesFields := by unfold J.cryptoAlgorithmPropertiesFields; infer_instance
instance : JIdem J.cryptoAlgorithmProperties :=
  struct_idem J.cryptoAlgorithmPropertiesFields _ _ fun _ => rfl

instance : JFieldsIdem J.cipherSuiteFields := by unfold J.cipherSuiteFields; infer_instance
instance : JIdem J.cipherSuite :=
  struct_idem J.cipherSuiteFields _ _ fun _ => rfl

instance : JFieldsIdem J.ikev2AuthFields := by unfold J.ikev2AuthFields; infer_instance
instance : JIdem J.ikev2Auth :=
  have : JIdem (JCodec.struct J.ikev2AuthFields IKEv2Auth.toP IKEv2Auth.ofP) :=
    struct_idem J.ikev2AuthFields _ _ fun _ => rfl
  ikev2_idem _ _ fun _ _ => rfl

instance : JFieldsIdem J.ikev2EncFields := by unfold J.ikev2EncFields; infer_instance
instance : JIdem J.ikev2Enc :=
  have : JIdem (JCodec.struct J.ikev2EncFields IKEv2Enc.toP IKEv2Enc.ofP) :=
    struct_idem J.ikev2EncFields _ _ fun _ => rfl
  ikev2_idem _ _ fun _ _ => rfl

instance : JFieldsIdem J.ikev2IntegFields := by unfold J.ikev2IntegFields; infer_instance
instance : JIdem J.ikev2Integ :=
  have : JIdem (JCodec.struct J.ikev2IntegFields IKEv2Integ.toP IKEv2Integ.ofP) :=
    struct_idem J.ikev2IntegFields _ _ fun _ => rfl
  ikev2_idem _ _ fun _ _ => rfl

instance : JFieldsIdem J.ikev2KeFields := by unfold J.ikev2KeFields; infer_instance
instance : JIdem J.ikev2Ke :=
  have : JIdem (JCodec.struct J.ikev2KeFields IKEv2Ke.toP IKEv2Ke.ofP) :=
    struct_idem J.ikev2KeFields _ _ fun _ => rfl
  ikev2_idem _ _ fun _ _ => rfl

instance : JFieldsIdem J.ikev2PrfFields := by unfold J.ikev2PrfFields; infer_instance
instance : JIdem J.ikev2Prf :=
  have : JIdem (JCodec.struct J.ikev2PrfFields IKEv2Prf.toP IKEv2Prf.ofP) :=
    struct_idem J.ikev2PrfFields _ _ fun _ => rfl
  ikev2_idem _ _ fun _ _ => rfl

instance : JFieldsIdem J.ikev2TransformTypesFields := by unfold J.ikev2TransformTypesFields; infer_instance
instance : JIdem J.ikev2TransformTypes :=
  struct_idem J.ikev2TransformTypesFields _ _ fun _ => rfl

instance : JFieldsIdem J.cryptoProtocolPropertiesFields := by unfold J.cryptoProtocolPropertiesFields; infer_instance
instance : JIdem J.cryptoProtocolProperties :=
  struct_idem J.cryptoProtocolPropertiesFields _ _ fun _ => rfl

instance : JFieldsIdem J.securedByFields := by unfold J.securedByFields; infer_instance
instance : JIdem J.securedBy :=
  struct_idem J.securedByFields _ _ fun _ => rfl

instance : JFieldsIdem J.relatedCryptoMaterialPropertiesFields := by unfold J.relatedCryptoMaterialPropertiesFields; infer_instance
instance : JIdem J.relatedCryptoMaterialProperties :=
  struct_idem J.relatedCryptoMaterialPropertiesFields _ _ fun _ => rfl

instance : JFieldsIdem J.cryptoPropertiesFields := by unfold J.cryptoPropertiesFields; infer_instance
instance : JIdem J.cryptoProperties :=
  struct_idem J.cryptoPropertiesFields _ _ fun _ => rfl

instance : JFieldsIdem J.callstackFrameFields := by unfold J.callstackFrameFields; infer_instance
instance : JIdem J.callstackFrame :=
  struct_idem J.callstackFrameFields _ _ fun _ => rfl

instance : JFieldsIdem J.callstackFields := by unfold J.callstackFields; infer_instance
instance : JIdem J.callstack :=
  struct_idem J.callstackFields _ _ fun _ => rfl

instance : JFieldsIdem J.copyrightFields := by unfold J.copyrightFields; infer_instance
instance : JIdem J.copyright :=
  struct_idem J.copyrightFields _ _ fun _ => rfl

instance : JFieldsIdem J.evidenceIdentityMethodFields := by unfold J.evidenceIdentityMethodFields; infer_instance
instance : JIdem J.evidenceIdentityMethod :=
  struct_idem J.evidenceIdentityMethodFields _ _ fun _ => rfl

instance : JFieldsIdem J.evidenceIdentityFields := by unfold J.evidenceIdentityFields; infer_instance
instance : JIdem J.evidenceIdentity :=
  struct_idem J.evidenceIdentityFields _ _ fun _ => rfl

example : JIdem J.evidenceIdentityChoice := inferInstance

instance : JFieldsIdem J.evidenceOccurrenceFields := by unfold J.evidenceOccurrenceFields; infer_instance
instance : JIdem J.evidenceOccurrence :=
  struct_idem J.evidenceOccurrenceFields _ _ fun _ => rfl

instance : JFieldsIdem J.organizationalEntityOrContactFields := by unfold J.organizationalEntityOrContactFields; infer_instance
instance : JIdem J.organizationalEntityOrContact :=
  struct_idem J.organizationalEntityOrContactFields _ _ fun _ => rfl

instance : JFieldsIdem J.licensingFields := by unfold J.licensingFields; infer_instance
instance : JIdem J.licensing :=
  struct_idem J.licensingFields _ _ fun _ => rfl

instance : JFieldsIdem J.licenseFields := by unfold J.licenseFields; infer_instance
instance : JIdem J.licenseAlias :=
  struct_idem J.licenseFields _ _ fun _ => rfl
instance : JIdem J.license := ⟨fun j a b hj h => JIdem.idem (c := J.licenseAlias) j a b hj h⟩

instance : JFieldsIdem J.licenseExpressionDetailFields := by unfold J.licenseExpressionDetailFields; infer_instance
instance : JIdem J.licenseExpressionDetail :=
  struct_idem J.licenseExpressionDetailFields _ _ fun _ => rfl

instance : JFieldsIdem J.licenseChoiceFields := by unfold J.licenseChoiceFields; infer_instance
instance : JIdem J.licenseChoice :=
  struct_idem J.licenseChoiceFields _ _ fun _ => rfl

instance : JFieldsIdem J.evidenceFields := by unfold J.evidenceFields; infer_instance
instance : JIdem J.evidence :=
  struct_idem J.evidenceFields _ _ fun _ => rfl

instance : JFieldsIdem J.externalReferenceFields := by unfold J.externalReferenceFields; infer_instance
instance : JIdem J.externalReference :=
  struct_idem J.externalReferenceFields _ _ fun _ => rfl

instance : JFieldsIdem J.jsfPublicKeyFields := by unfold J.jsfPublicKeyFields; infer_instance
instance : JIdem J.jsfPublicKey :=
  struct_idem J.jsfPublicKeyFields _ _ fun _ => rfl

instance : JFieldsIdem J.jsfSignerFields := by unfold J.jsfSignerFields; infer_instance
instance : JIdem J.jsfSigner :=
  struct_idem J.jsfSignerFields _ _ fun _ => rfl

instance : JFieldsIdem J.jsfSignatureFields := by unfold J.jsfSignatureFields; infer_instance
instance : JIdem J.jsfSignature :=
  struct_idem J.jsfSignatureFields _ _ fun _ => rfl

instance : JFieldsIdem J.mlModelCO2MeasureFields := by unfold J.mlModelCO2MeasureFields; infer_instance
instance : JIdem J.mlModelCO2Measure :=
  struct_idem J.mlModelCO2MeasureFields _ _ fun _ => rfl

instance : JFieldsIdem J.mlModelEnergyMeasureFields := by unfold J.mlModelEnergyMeasureFields; infer_instance
instance : JIdem J.mlModelEnergyMeasure :=
  struct_idem J.mlModelEnergyMeasureFields _ _ fun _ => rfl

instance : JFieldsIdem J.mlModelEnergyProviderFields := by unfold J.mlModelEnergyProviderFields; infer_instance
instance : JIdem J.mlModelEnergyProvider :=
  struct_idem J.mlModelEnergyProviderFields _ _ fun _ => rfl

instance : JFieldsIdem J.mlModelEnergyConsumptionFields := by unfold J.mlModelEnergyConsumptionFields; infer_instance
instance : JIdem J.mlModelEnergyConsumption :=
  struct_idem J.mlModelEnergyConsumptionFields _ _ fun _ => rfl

instance : JFieldsIdem J.mlModelCardEnvironmentalConsiderationsFields := by unfold J.mlModelCardEnvironmentalConsiderationsFields; infer_instance
instance : JIdem J.mlModelCardEnvironmentalConsiderations :=
  struct_idem J.mlModelCardEnvironmentalConsiderationsFields _ _ fun _ => rfl

instance : JFieldsIdem J.mlModelCardEthicalConsiderationFields := by unfold J.mlModelCardEthicalConsiderationFields; infer_instance
instance : JIdem J.mlModelCardEthicalConsideration :=
  struct_idem J.mlModelCardEthicalConsiderationFields _ _ fun _ => rfl

instance : JFieldsIdem J.mlModelCardFairnessAssessmentFields := by unfold J.mlModelCardFairnessAssessmentFields; infer_instance
instance : JIdem J.mlModelCardFairnessAssessment :=
  struct_idem J.mlModelCardFairnessAssessmentFields _ _ fun _ => rfl

instance : JFieldsIdem J.mlModelCardConsiderationsFields := by unfold J.mlModelCardConsiderationsFields; infer_instance
instance : JIdem J.mlModelCardConsiderations :=
  struct_idem J.mlModelCardConsiderationsFields _ _ fun _ => rfl

example : JIdem J.mlDatasetChoice := inferInstance

instance : JFieldsIdem J.mlInputOutputParametersFields := by unfold J.mlInputOutputParametersFields; infer_instance
instance : JIdem J.mlInputOutputParameters :=
  struct_idem J.mlInputOutputParametersFields _ _ fun _ => rfl

instance : JFieldsIdem J.mlModelParametersApproachFields := by unfold J.mlModelParametersApproachFields; infer_instance
instance : JIdem J.mlModelParametersApproach :=
  struct_idem J.mlModelParametersApproachFields _ _ fun _ => rfl

instance : JFieldsIdem J.mlModelParametersFields := by unfold J.mlModelParametersFields; infer_instance
instance : JIdem J.mlModelParameters :=
  struct_idem J.mlModelParametersFields _ _ fun _ => rfl

instance : JFieldsIdem J.mlPerformanceMetricConfidenceIntervalFields := by unfold J.mlPerformanceMetricConfidenceIntervalFields; infer_instance
instance : JIdem J.mlPerformanceMetricConfidenceInterval :=
  struct_idem J.mlPerformanceMetricConfidenceIntervalFields _ _ fun _ => rfl

instance : JFieldsIdem J.mlPerformanceMetricFields := by unfold J.mlPerformanceMetricFields; infer_instance
instance : JIdem J.mlPerformanceMetric :=
  struct_idem J.mlPerformanceMetricFields _ _ fun _ => rfl

instance : JFieldsIdem J.mlQuantitativeAnalysisFields := by unfold J.mlQuantitativeAnalysisFields; infer_instance
instance : JIdem J.mlQuantitativeAnalysis :=
  struct_idem J.mlQuantitativeAnalysisFields _ _ fun _ => rfl

instance : JFieldsIdem J.mlModelCardFields := by unfold J.mlModelCardFields; infer_instance
instance : JIdem J.mlModelCard :=
  struct_idem J.mlModelCardFields _ _ fun _ => rfl

instance : JFieldsIdem J.identifiableActionFields := by unfold J.identifiableActionFields; infer_instance
instance : JIdem J.identifiableAction :=
  struct_idem J.identifiableActionFields _ _ fun _ => rfl

instance : JFieldsIdem J.commitFields := by unfold J.commitFields; infer_instance
instance : JIdem J.commit :=
  struct_idem J.commitFields _ _ fun _ => rfl

instance : JFieldsIdem J.diffFields := by unfold J.diffFields; infer_instance
instance : JIdem J.diff :=
  struct_idem J.diffFields _ _ fun _ => rfl

instance : JFieldsIdem J.sourceFields := by unfold J.sourceFields; infer_instance
instance : JIdem J.source :=
  struct_idem J.sourceFields _ _ fun _ => rfl

instance : JFieldsIdem J.issueFields := by unfold J.issueFields; infer_instance
instance : JIdem J.issue :=
  struct_idem J.issueFields _ _ fun _ => rfl

instance : JFieldsIdem J.patchFields := by unfold J.patchFields; infer_instance
instance : JIdem J.patch :=
  struct_idem J.patchFields _ _ fun _ => rfl

instance (C : JCodec Component) [JIdem C] : JFieldsIdem (J.pedigreeFields C) := by unfold J.pedigreeFields; infer_instance
instance (C : JCodec Component) [JIdem C] : JIdem (J.pedigree C) :=
  struct_idem (J.pedigreeFields C) _ _ fun _ => rfl

instance : JFieldsIdem J.noteFields := by unfold J.noteFields; infer_instance
instance : JIdem J.note :=
  struct_idem J.noteFields _ _ fun _ => rfl

instance : JFieldsIdem J.releaseNotesFields := by unfold J.releaseNotesFields; infer_instance
instance : JIdem J.releaseNotes :=
  struct_idem J.releaseNotesFields _ _ fun _ => rfl

instance : JFieldsIdem J.swidFields := by unfold J.swidFields; infer_instance
instance : JIdem J.swid :=
  struct_idem J.swidFields _ _ fun _ => rfl

example : JIdem J.asserterChoice := inferInstance

instance : JFieldsIdem J.patentAssertionFields := by unfold J.patentAssertionFields; infer_instance
instance : JIdem J.patentAssertion :=
  struct_idem J.patentAssertionFields _ _ fun _ => rfl

instance (C : JCodec Component) [JIdem C] : JFieldsIdem (J.componentFields C) := by unfold J.componentFields; infer_instance
instance (C : JCodec Component) [JIdem C] : JIdem (J.componentWith C) :=
  struct_idem (J.componentFields C) _ _ fun _ => rfl
instance : JIdem J.component := knot_idem component_knotted fun n => by
  induction n with
  | zero => exact inferInstanceAs (JIdem (J.bottom _))
  | succ n ih => exact inferInstanceAs (JIdem (J.componentWith (J.componentN n)))

instance : JFieldsIdem J.dataClassificationFields := by unfold J.dataClassificationFields; infer_instance
instance : JIdem J.dataClassification :=
  struct_idem J.dataClassificationFields _ _ fun _ => rfl

instance (C : JCodec Service) [JIdem C] : JFieldsIdem (J.serviceFields C) := by unfold J.serviceFields; infer_instance
instance (C : JCodec Service) [JIdem C] : JIdem (J.serviceWith C) :=
  struct_idem (J.serviceFields C) _ _ fun _ => rfl
instance : JIdem J.service := knot_idem service_knotted fun n => by
  induction n with
  | zero => exact inferInstanceAs (JIdem (J.bottom _))
  | succ n ih => exact inferInstanceAs (JIdem (J.serviceWith (J.serviceN n)))

instance : JFieldsIdem J.annotatorFields := by unfold J.annotatorFields; infer_instance
instance : JIdem J.annotator :=
  struct_idem J.annotatorFields _ _ fun _ => rfl

instance : JFieldsIdem J.annotationFields := by unfold J.annotationFields; infer_instance
instance : JIdem J.annotation :=
  struct_idem J.annotationFields _ _ fun _ => rfl

instance : JFieldsIdem J.assessorFields := by unfold J.assessorFields; infer_instance
instance : JIdem J.assessor :=
  struct_idem J.assessorFields _ _ fun _ => rfl

instance : JFieldsIdem J.attestationConformanceFields := by unfold J.attestationConformanceFields; infer_instance
instance : JIdem J.attestationConformance :=
  struct_idem J.attestationConformanceFields _ _ fun _ => rfl

instance : JFieldsIdem J.attestationConfidenceFields := by unfold J.attestationConfidenceFields; infer_instance
instance : JIdem J.attestationConfidence :=
  struct_idem J.attestationConfidenceFields _ _ fun _ => rfl

instance : JFieldsIdem J.attestationMapFields := by unfold J.attestationMapFields; infer_instance
instance : JIdem J.attestationMap :=
  struct_idem J.attestationMapFields _ _ fun _ => rfl

instance : JFieldsIdem J.attestationFields := by unfold J.attestationFields; infer_instance
instance : JIdem J.attestation :=
  struct_idem J.attestationFields _ _ fun _ => rfl

instance : JFieldsIdem J.compositionFields := by unfold J.compositionFields; infer_instance
instance : JIdem J.composition :=
  struct_idem J.compositionFields _ _ fun _ => rfl

instance : JFieldsIdem J.claimFields := by unfold J.claimFields; infer_instance
instance : JIdem J.claim :=
  struct_idem J.claimFields _ _ fun _ => rfl

instance : JFieldsIdem J.evidenceDataContentsFields := by unfold J.evidenceDataContentsFields; infer_instance
instance : JIdem J.evidenceDataContents :=
  struct_idem J.evidenceDataContentsFields _ _ fun _ => rfl

instance : JFieldsIdem J.evidenceDataFields := by unfold J.evidenceDataFields; infer_instance
instance : JIdem J.evidenceData :=
  struct_idem J.evidenceDataFields _ _ fun _ => rfl

instance : JFieldsIdem J.declarationEvidenceFields := by unfold J.declarationEvidenceFields; infer_instance
instance : JIdem J.declarationEvidence :=
  struct_idem J.declarationEvidenceFields _ _ fun _ => rfl

instance : JFieldsIdem J.targetsFields := by unfold J.targetsFields; infer_instance
instance : JIdem J.targets :=
  struct_idem J.targetsFields _ _ fun _ => rfl

instance : JFieldsIdem J.signatoryFields := by unfold J.signatoryFields; infer_instance
instance : JIdem J.signatory :=
  struct_idem J.signatoryFields _ _ fun _ => rfl

instance : JFieldsIdem J.affirmationFields := by unfold J.affirmationFields; infer_instance
instance : JIdem J.affirmation :=
  struct_idem J.affirmationFields _ _ fun _ => rfl

instance : JFieldsIdem J.declarationsFields := by unfold J.declarationsFields; infer_instance
instance : JIdem J.declarations :=
  struct_idem J.declarationsFields _ _ fun _ => rfl

instance : JFieldsIdem J.priorityApplicationFields := by unfold J.priorityApplicationFields; infer_instance
instance : JIdem J.priorityApplication :=
  struct_idem J.priorityApplicationFields _ _ fun _ => rfl

instance : JFieldsIdem J.patentFields := by unfold J.patentFields; infer_instance
instance : JIdem J.patent :=
  struct_idem J.patentFields _ _ fun _ => rfl

instance : JFieldsIdem J.patentFamilyFields := by unfold J.patentFamilyFields; infer_instance
instance : JIdem J.patentFamily :=
  struct_idem J.patentFamilyFields _ _ fun _ => rfl

example : JIdem J.patentChoice := inferInstance

instance : JFieldsIdem J.standardRequirementFields := by unfold J.standardRequirementFields; infer_instance
instance : JIdem J.standardRequirement :=
  struct_idem J.standardRequirementFields _ _ fun _ => rfl

instance : JFieldsIdem J.standardLevelFields := by unfold J.standardLevelFields; infer_instance
instance : JIdem J.standardLevel :=
  struct_idem J.standardLevelFields _ _ fun _ => rfl

instance : JFieldsIdem J.standardDefinitionFields := by unfold J.standardDefinitionFields; infer_instance
instance : JIdem J.standardDefinition :=
  struct_idem J.standardDefinitionFields _ _ fun _ => rfl

instance : JFieldsIdem J.definitionsFields := by unfold J.definitionsFields; infer_instance
instance : JIdem J.definitions :=
  struct_idem J.definitionsFields _ _ fun _ => rfl

instance : JFieldsIdem J.dependencyFields := by unfold J.dependencyFields; infer_instance
instance : JIdem J.dependency :=
  struct_idem J.dependencyFields _ _ fun _ => rfl

instance : JFieldsIdem J.resourceReferenceChoiceFields := by unfold J.resourceReferenceChoiceFields; infer_instance
instance : JIdem J.resourceReferenceChoice :=
  struct_idem J.resourceReferenceChoiceFields _ _ fun _ => rfl

example : JIdem J.environmentVariableChoice := inferInstance

instance : JFieldsIdem J.parameterFields := by unfold J.parameterFields; infer_instance
instance : JIdem J.parameter :=
  struct_idem J.parameterFields _ _ fun _ => rfl

instance : JFieldsIdem J.taskInputFields := by unfold J.taskInputFields; infer_instance
instance : JIdem J.taskInput :=
  struct_idem J.taskInputFields _ _ fun _ => rfl

instance : JFieldsIdem J.taskOutputFields := by unfold J.taskOutputFields; infer_instance
instance : JIdem J.taskOutput :=
  struct_idem J.taskOutputFields _ _ fun _ => rfl

instance : JFieldsIdem J.taskCommandFields := by unfold J.taskCommandFields; infer_instance
instance : JIdem J.taskCommand :=
  struct_idem J.taskCommandFields _ _ fun _ => rfl

instance : JFieldsIdem J.taskStepFields := by unfold J.taskStepFields; infer_instance
instance : JIdem J.taskStep :=
  struct_idem J.taskStepFields _ _ fun _ => rfl

instance : JFieldsIdem J.eventFields := by unfold J.eventFields; infer_instance
instance : JIdem J.event :=
  struct_idem J.eventFields _ _ fun _ => rfl

instance : JFieldsIdem J.taskTriggerConditionFields := by unfold J.taskTriggerConditionFields; infer_instance
instance : JIdem J.taskTriggerCondition :=
  struct_idem J.taskTriggerConditionFields _ _ fun _ => rfl

instance : JFieldsIdem J.taskTriggerFields := by unfold J.taskTriggerFields; infer_instance
instance : JIdem J.taskTrigger :=
  struct_idem J.taskTriggerFields _ _ fun _ => rfl

instance : JFieldsIdem J.volumeFields := by unfold J.volumeFields; infer_instance
instance : JIdem J.volume :=
  struct_idem J.volumeFields _ _ fun _ => rfl

instance : JFieldsIdem J.taskWorkspaceFields := by unfold J.taskWorkspaceFields; infer_instance
instance : JIdem J.taskWorkspace :=
  struct_idem J.taskWorkspaceFields _ _ fun _ => rfl

instance : JFieldsIdem J.taskFields := by unfold J.taskFields; infer_instance
instance : JIdem J.task :=
  struct_idem J.taskFields _ _ fun _ => rfl

instance : JFieldsIdem J.workflowFields := by unfold J.workflowFields; infer_instance
instance : JIdem J.workflow :=
  struct_idem J.workflowFields _ _ fun _ => rfl

instance : JFieldsIdem J.formulaFields := by unfold J.formulaFields; infer_instance
instance : JIdem J.formula :=
  struct_idem J.formulaFields _ _ fun _ => rfl

instance : JFieldsIdem J.lifecycleFields := by unfold J.lifecycleFields; infer_instance
instance : JIdem J.lifecycle :=
  struct_idem J.lifecycleFields _ _ fun _ => rfl

instance : JFieldsIdem J.toolFields := by unfold J.toolFields; infer_instance
instance : JIdem J.tool :=
  struct_idem J.toolFields _ _ fun _ => rfl

instance : JFieldsIdem J.toolsChoiceFields := by unfold J.toolsChoiceFields; infer_instance
instance : JIdem J.toolsChoiceJSON :=
  struct_idem J.toolsChoiceFields _ _ fun _ => rfl
example : JIdem J.toolsChoice := inferInstance

instance : JFieldsIdem J.distributionConstraintsFields := by unfold J.distributionConstraintsFields; infer_instance
instance : JIdem J.distributionConstraints :=
  struct_idem J.distributionConstraintsFields _ _ fun _ => rfl

instance : JFieldsIdem J.metadataFields := by unfold J.metadataFields; infer_instance
instance : JIdem J.metadata :=
  struct_idem J.metadataFields _ _ fun _ => rfl

instance : JFieldsIdem J.creditsFields := by unfold J.creditsFields; infer_instance
instance : JIdem J.credits :=
  struct_idem J.creditsFields _ _ fun _ => rfl

instance : JFieldsIdem J.proofOfConceptFields := by unfold J.proofOfConceptFields; infer_instance
instance : JIdem J.proofOfConcept :=
  struct_idem J.proofOfConceptFields _ _ fun _ => rfl

instance : JFieldsIdem J.vulnerabilityAnalysisFields := by unfold J.vulnerabilityAnalysisFields; infer_instance
instance : JIdem J.vulnerabilityAnalysis :=
  struct_idem J.vulnerabilityAnalysisFields _ _ fun _ => rfl

instance : JFieldsIdem J.vulnerabilityRatingFields := by unfold J.vulnerabilityRatingFields; infer_instance
instance : JIdem J.vulnerabilityRating :=
  struct_idem J.vulnerabilityRatingFields _ _ fun _ => rfl

instance : JFieldsIdem J.vulnerabilityReferenceFields := by unfold J.vulnerabilityReferenceFields; infer_instance
instance : JIdem J.vulnerabilityReference :=
  struct_idem J.vulnerabilityReferenceFields _ _ fun _ => rfl

instance : JFieldsIdem J.vulnerabilityFields := by unfold J.vulnerabilityFields; infer_instance
instance : JIdem J.vulnerability :=
  struct_idem J.vulnerabilityFields _ _ fun _ => rfl

instance : JFieldsIdem J.citationFields := by unfold J.citationFields; infer_instance
instance : JIdem J.citation :=
  struct_idem J.citationFields _ _ fun _ => rfl

instance : JFieldsIdem (J.bomFields J.specVersion) := by unfold J.bomFields; infer_instance
instance : JIdem (J.bomWith J.specVersion) :=
  struct_idem (J.bomFields J.specVersion) _ _ fun _ => rfl

end Verif
