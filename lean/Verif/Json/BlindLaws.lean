import Verif.Json.Blind
import Verif.Json.StructLaws

/-!
# Whether decoding fails does not depend on what the variable held: every codec

GENERATED by `tools/gen_blind.py`; do not edit by hand.
-/

namespace Verif

variable [FloatIO]

set_option linter.unusedSectionVars false
set_option synthInstance.maxSize 4000
set_option synthInstance.maxHeartbeats 400000

instance : JFieldsBlind J.advisoryFields := by unfold J.advisoryFields; infer_instance
instance : JBlind J.advisory :=
  struct_blind J.advisoryFields _ _

instance : JFieldsBlind J.affectedVersionsFields := by unfold J.affectedVersionsFields; infer_instance
instance : JBlind J.affectedVersions :=
  struct_blind J.affectedVersionsFields _ _

instance : JFieldsBlind J.affectsFields := by unfold J.affectsFields; infer_instance
instance : JBlind J.affects :=
  struct_blind J.affectsFields _ _

instance : JFieldsBlind J.attachedTextFields := by unfold J.attachedTextFields; infer_instance
instance : JBlind J.attachedText :=
  struct_blind J.attachedTextFields _ _

instance : JFieldsBlind J.propertyFields := by unfold J.propertyFields; infer_instance
instance : JBlind J.property :=
  struct_blind J.propertyFields _ _

instance : JFieldsBlind J.componentDataContentsFields := by unfold J.componentDataContentsFields; infer_instance
instance : JBlind J.componentDataContents :=
  struct_blind J.componentDataContentsFields _ _

instance : JFieldsBlind J.componentDataGraphicFields := by unfold J.componentDataGraphicFields; infer_instance
instance : JBlind J.componentDataGraphic :=
  struct_blind J.componentDataGraphicFields _ _

instance : JFieldsBlind J.componentDataGraphicsFields := by unfold J.componentDataGraphicsFields; infer_instance
instance : JBlind J.componentDataGraphics :=
  struct_blind J.componentDataGraphicsFields _ _

instance : JFieldsBlind J.organizationalContactFields := by unfold J.organizationalContactFields; infer_instance
instance : JBlind J.organizationalContact :=
  struct_blind J.organizationalContactFields _ _

instance : JFieldsBlind J.postalAddressFields := by unfold J.postalAddressFields; infer_instance
instance : JBlind J.postalAddress :=
  struct_blind J.postalAddressFields _ _

instance : JFieldsBlind J.organizationalEntityFields := by unfold J.organizationalEntityFields; infer_instance
instance : JBlind J.organizationalEntity :=
  struct_blind J.organizationalEntityFields _ _

instance : JFieldsBlind J.componentDataGovernanceResponsiblePartyFields := by unfold J.componentDataGovernanceResponsiblePartyFields; infer_instance
instance : JBlind J.componentDataGovernanceResponsibleParty :=
  struct_blind J.componentDataGovernanceResponsiblePartyFields _ _

instance : JFieldsBlind J.dataGovernanceFields := by unfold J.dataGovernanceFields; infer_instance
instance : JBlind J.dataGovernance :=
  struct_blind J.dataGovernanceFields _ _

instance : JFieldsBlind J.componentDataFields := by unfold J.componentDataFields; infer_instance
instance : JBlind J.componentData :=
  struct_blind J.componentDataFields _ _

instance : JFieldsBlind J.hashFields := by unfold J.hashFields; infer_instance
instance : JBlind J.hash :=
  struct_blind J.hashFields _ _

instance : JFieldsBlind J.relatedCryptographicAssetFields := by unfold J.relatedCryptographicAssetFields; infer_instance
instance : JBlind J.relatedCryptographicAsset :=
  struct_blind J.relatedCryptographicAssetFields _ _

instance : JFieldsBlind J.predefinedCertificateStateFields := by unfold J.predefinedCertificateStateFields; infer_instance
instance : JBlind J.predefinedCertificateState :=
  struct_blind J.predefinedCertificateStateFields _ _

instance : JFieldsBlind J.customCertificateStateFields := by unfold J.customCertificateStateFields; infer_instance
instance : JBlind J.customCertificateState :=
  struct_blind J.customCertificateStateFields _ _

example : JBlind J.certificateState := inferInstance

instance : JFieldsBlind J.commonCertificateExtensionFields := by unfold J.commonCertificateExtensionFields; infer_instance
instance : JBlind J.commonCertificateExtension :=
  struct_blind J.commonCertificateExtensionFields _ _

instance : JFieldsBlind J.customCertificateExtensionFields := by unfold J.customCertificateExtensionFields; infer_instance
instance : JBlind J.customCertificateExtension :=
  struct_blind J.customCertificateExtensionFields _ _

example : JBlind J.certificateExtension := inferInstance

instance : JFieldsBlind J.certificatePropertiesFields := by unfold J.certificatePropertiesFields; infer_instance
instance : JBlind J.certificateProperties :=
  struct_blind J.certificatePropertiesFields _ _

instance : JFieldsBlind J.cryptoAlgorithmPropertiesFields := by unfold J.cryptoAlgorithmPropertiesFields; infer_instance
instance : JBlind J.cryptoAlgorithmProperties :=
  struct_blind J.cryptoAlgorithmPropertiesFields _ _

instance : JFieldsBlind J.cipherSuiteFields := by unfold J.cipherSuiteFields; infer_instance
instance : JBlind J.cipherSuite :=
  struct_blind J.cipherSuiteFields _ _

instance : JFieldsBlind J.ikev2AuthFields := by unfold J.ikev2AuthFields; infer_instance
instance : JBlind J.ikev2Auth :=
  have : JBlind (JCodec.struct J.ikev2AuthFields IKEv2Auth.toP IKEv2Auth.ofP) :=
    struct_blind J.ikev2AuthFields _ _
  ikev2_blind _ _

instance : JFieldsBlind J.ikev2EncFields := by unfold J.ikev2EncFields; infer_instance
instance : JBlind J.ikev2Enc :=
  have : JBlind (JCodec.struct J.ikev2EncFields IKEv2Enc.toP IKEv2Enc.ofP) :=
    struct_blind J.ikev2EncFields _ _
  ikev2_blind _ _

instance : JFieldsBlind J.ikev2IntegFields := by unfold J.ikev2IntegFields; infer_instance
instance : JBlind J.ikev2Integ :=
  have : JBlind (JCodec.struct J.ikev2IntegFields IKEv2Integ.toP IKEv2Integ.ofP) :=
    struct_blind J.ikev2IntegFields _ _
  ikev2_blind _ _

instance : JFieldsBlind J.ikev2KeFields := by unfold J.ikev2KeFields; infer_instance
instance : JBlind J.ikev2Ke :=
  have : JBlind (JCodec.struct J.ikev2KeFields IKEv2Ke.toP IKEv2Ke.ofP) :=
    struct_blind J.ikev2KeFields _ _
  ikev2_blind _ _

instance : JFieldsBlind J.ikev2PrfFields := by unfold J.ikev2PrfFields; infer_instance
instance : JBlind J.ikev2Prf :=
  have : JBlind (JCodec.struct J.ikev2PrfFields IKEv2Prf.toP IKEv2Prf.ofP) :=
    struct_blind J.ikev2PrfFields _ _
  ikev2_blind _ _

instance : JFieldsBlind J.ikev2TransformTypesFields := by unfold J.ikev2TransformTypesFields; infer_instance
instance : JBlind J.ikev2TransformTypes :=
  struct_blind J.ikev2TransformTypesFields _ _

instance : JFieldsBlind J.cryptoProtocolPropertiesFields := by unfold J.cryptoProtocolPropertiesFields; infer_instance
instance : JBlind J.cryptoProtocolProperties :=
  struct_blind J.cryptoProtocolPropertiesFields _ _

instance : JFieldsBlind J.securedByFields := by unfold J.securedByFields; infer_instance
instance : JBlind J.securedBy :=
  struct_blind J.securedByFields _ _

instance : JFieldsBlind J.relatedCryptoMaterialPropertiesFields := by unfold J.relatedCryptoMaterialPropertiesFields; infer_instance
instance : JBlind J.relatedCryptoMaterialProperties :=
  struct_blind J.relatedCryptoMaterialPropertiesFields _ _

instance : JFieldsBlind J.cryptoPropertiesFields := by unfold J.cryptoPropertiesFields; infer_instance
instance : JBlind J.cryptoProperties :=
  struct_blind J.cryptoPropertiesFields _ _

instance : JFieldsBlind J.callstackFrameFields := by unfold J.callstackFrameFields; infer_instance
instance : JBlind J.callstackFrame :=
  struct_blind J.callstackFrameFields _ _

instance : JFieldsBlind J.callstackFields := by unfold J.callstackFields; infer_instance
instance : JBlind J.callstack :=
  struct_blind J.callstackFields _ _

instance : JFieldsBlind J.copyrightFields := by unfold J.copyrightFields; infer_instance
instance : JBlind J.copyright :=
  struct_blind J.copyrightFields _ _

instance : JFieldsBlind J.evidenceIdentityMethodFields := by unfold J.evidenceIdentityMethodFields; infer_instance
instance : JBlind J.evidenceIdentityMethod :=
  struct_blind J.evidenceIdentityMethodFields _ _

instance : JFieldsBlind J.evidenceIdentityFields := by unfold J.evidenceIdentityFields; infer_instance
instance : JBlind J.evidenceIdentity :=
  struct_blind J.evidenceIdentityFields _ _

example : JBlind J.evidenceIdentityChoice := inferInstance

instance : JFieldsBlind J.evidenceOccurrenceFields := by unfold J.evidenceOccurrenceFields; infer_instance
instance : JBlind J.evidenceOccurrence :=
  struct_blind J.evidenceOccurrenceFields _ _

instance : JFieldsBlind J.organizationalEntityOrContactFields := by unfold J.organizationalEntityOrContactFields; infer_instance
instance : JBlind J.organizationalEntityOrContact :=
  struct_blind J.organizationalEntityOrContactFields _ _

instance : JFieldsBlind J.licensingFields := by unfold J.licensingFields; infer_instance
instance : JBlind J.licensing :=
  struct_blind J.licensingFields _ _

instance : JFieldsBlind J.licenseFields := by unfold J.licenseFields; infer_instance
instance : JBlind J.licenseAlias :=
  struct_blind J.licenseFields _ _
instance : JBlind J.license := ⟨fun j a b => JBlind.blind (c := J.licenseAlias) j a b⟩

instance : JFieldsBlind J.licenseExpressionDetailFields := by unfold J.licenseExpressionDetailFields; infer_instance
instance : JBlind J.licenseExpressionDetail :=
  struct_blind J.licenseExpressionDetailFields _ _

instance : JFieldsBlind J.licenseChoiceFields := by unfold J.licenseChoiceFields; infer_instance
instance : JBlind J.licenseChoice :=
  struct_blind J.licenseChoiceFields _ _

instance : JFieldsBlind J.evidenceFields := by unfold J.evidenceFields; infer_instance
instance : JBlind J.evidence :=
  struct_blind J.evidenceFields _ _

instance : JFieldsBlind J.externalReferenceFields := by unfold J.externalReferenceFields; infer_instance
instance : JBlind J.externalReference :=
  struct_blind J.externalReferenceFields _ _

instance : JFieldsBlind J.jsfPublicKeyFields := by unfold J.jsfPublicKeyFields; infer_instance
instance : JBlind J.jsfPublicKey :=
  struct_blind J.jsfPublicKeyFields _ _

instance : JFieldsBlind J.jsfSignerFields := by unfold J.jsfSignerFields; infer_instance
instance : JBlind J.jsfSigner :=
  struct_blind J.jsfSignerFields _ _

instance : JFieldsBlind J.jsfSignatureFields := by unfold J.jsfSignatureFields; infer_instance
instance : JBlind J.jsfSignature :=
  struct_blind J.jsfSignatureFields _ _

instance : JFieldsBlind J.mlModelCO2MeasureFields := by unfold J.mlModelCO2MeasureFields; infer_instance
instance : JBlind J.mlModelCO2Measure :=
  struct_blind J.mlModelCO2MeasureFields _ _

instance : JFieldsBlind J.mlModelEnergyMeasureFields := by unfold J.mlModelEnergyMeasureFields; infer_instance
instance : JBlind J.mlModelEnergyMeasure :=
  struct_blind J.mlModelEnergyMeasureFields _ _

instance : JFieldsBlind J.mlModelEnergyProviderFields := by unfold J.mlModelEnergyProviderFields; infer_instance
instance : JBlind J.mlModelEnergyProvider :=
  struct_blind J.mlModelEnergyProviderFields _ _

instance : JFieldsBlind J.mlModelEnergyConsumptionFields := by unfold J.mlModelEnergyConsumptionFields; infer_instance
instance : JBlind J.mlModelEnergyConsumption :=
  struct_blind J.mlModelEnergyConsumptionFields _ _

instance : JFieldsBlind J.mlModelCardEnvironmentalConsiderationsFields := by unfold J.mlModelCardEnvironmentalConsiderationsFields; infer_instance
instance : JBlind J.mlModelCardEnvironmentalConsiderations :=
  struct_blind J.mlModelCardEnvironmentalConsiderationsFields _ _

instance : JFieldsBlind J.mlModelCardEthicalConsiderationFields := by unfold J.mlModelCardEthicalConsiderationFields; infer_instance
instance : JBlind J.mlModelCardEthicalConsideration :=
  struct_blind J.mlModelCardEthicalConsiderationFields _ _

instance : JFieldsBlind J.mlModelCardFairnessAssessmentFields := by unfold J.mlModelCardFairnessAssessmentFields; infer_instance
instance : JBlind J.mlModelCardFairnessAssessment :=
  struct_blind J.mlModelCardFairnessAssessmentFields _ _

instance : JFieldsBlind J.mlModelCardConsiderationsFields := by unfold J.mlModelCardConsiderationsFields; infer_instance
instance : JBlind J.mlModelCardConsiderations :=
  struct_blind J.mlModelCardConsiderationsFields _ _

example : JBlind J.mlDatasetChoice := inferInstance

instance : JFieldsBlind J.mlInputOutputParametersFields := by unfold J.mlInputOutputParametersFields; infer_instance
instance : JBlind J.mlInputOutputParameters :=
  struct_blind J.mlInputOutputParametersFields _ _

instance : JFieldsBlind J.mlModelParametersApproachFields := by unfold J.mlModelParametersApproachFields; infer_instance
instance : JBlind J.mlModelParametersApproach :=
  struct_blind J.mlModelParametersApproachFields _ _

instance : JFieldsBlind J.mlModelParametersFields := by unfold J.mlModelParametersFields; infer_instance
instance : JBlind J.mlModelParameters :=
  struct_blind J.mlModelParametersFields _ _

instance : JFieldsBlind J.mlPerformanceMetricConfidenceIntervalFields := by unfold J.mlPerformanceMetricConfidenceIntervalFields; infer_instance
instance : JBlind J.mlPerformanceMetricConfidenceInterval :=
  struct_blind J.mlPerformanceMetricConfidenceIntervalFields _ _

instance : JFieldsBlind J.mlPerformanceMetricFields := by unfold J.mlPerformanceMetricFields; infer_instance
instance : JBlind J.mlPerformanceMetric :=
  struct_blind J.mlPerformanceMetricFields _ _

instance : JFieldsBlind J.mlQuantitativeAnalysisFields := by unfold J.mlQuantitativeAnalysisFields; infer_instance
instance : JBlind J.mlQuantitativeAnalysis :=
  struct_blind J.mlQuantitativeAnalysisFields _ _

instance : JFieldsBlind J.mlModelCardFields := by unfold J.mlModelCardFields; infer_instance
instance : JBlind J.mlModelCard :=
  struct_blind J.mlModelCardFields _ _

instance : JFieldsBlind J.identifiableActionFields := by unfold J.identifiableActionFields; infer_instance
instance : JBlind J.identifiableAction :=
  struct_blind J.identifiableActionFields _ _

instance : JFieldsBlind J.commitFields := by unfold J.commitFields; infer_instance
instance : JBlind J.commit :=
  struct_blind J.commitFields _ _

instance : JFieldsBlind J.diffFields := by unfold J.diffFields; infer_instance
instance : JBlind J.diff :=
  struct_blind J.diffFields _ _

instance : JFieldsBlind J.sourceFields := by unfold J.sourceFields; infer_instance
instance : JBlind J.source :=
  struct_blind J.sourceFields _ _

instance : JFieldsBlind J.issueFields := by unfold J.issueFields; infer_instance
instance : JBlind J.issue :=
  struct_blind J.issueFields _ _

instance : JFieldsBlind J.patchFields := by unfold J.patchFields; infer_instance
instance : JBlind J.patch :=
  struct_blind J.patchFields _ _

instance (C : JCodec Component) [JBlind C] : JFieldsBlind (J.pedigreeFields C) := by unfold J.pedigreeFields; infer_instance
instance (C : JCodec Component) [JBlind C] : JBlind (J.pedigree C) :=
  struct_blind (J.pedigreeFields C) _ _

instance : JFieldsBlind J.noteFields := by unfold J.noteFields; infer_instance
instance : JBlind J.note :=
  struct_blind J.noteFields _ _

instance : JFieldsBlind J.releaseNotesFields := by unfold J.releaseNotesFields; infer_instance
instance : JBlind J.releaseNotes :=
  struct_blind J.releaseNotesFields _ _

instance : JFieldsBlind J.swidFields := by unfold J.swidFields; infer_instance
instance : JBlind J.swid :=
  struct_blind J.swidFields _ _

example : JBlind J.asserterChoice := inferInstance

instance : JFieldsBlind J.patentAssertionFields := by unfold J.patentAssertionFields; infer_instance
instance : JBlind J.patentAssertion :=
  struct_blind J.patentAssertionFields _ _

instance (C : JCodec Component) [JBlind C] : JFieldsBlind (J.componentFields C) := by unfold J.componentFields; infer_instance
instance (C : JCodec Component) [JBlind C] : JBlind (J.componentWith C) :=
  struct_blind (J.componentFields C) _ _
instance : JBlind J.component := knot_blind component_knotted fun n => by
  induction n with
  | zero => exact inferInstanceAs (JBlind (J.bottom _))
  | succ n ih => exact inferInstanceAs (JBlind (J.componentWith (J.componentN n)))

instance : JFieldsBlind J.dataClassificationFields := by unfold J.dataClassificationFields; infer_instance
instance : JBlind J.dataClassification :=
  struct_blind J.dataClassificationFields _ _

instance (C : JCodec Service) [JBlind C] : JFieldsBlind (J.serviceFields C) := by unfold J.serviceFields; infer_instance
instance (C : JCodec Service) [JBlind C] : JBlind (J.serviceWith C) :=
  struct_blind (J.serviceFields C) _ _
instance : JBlind J.service := knot_blind service_knotted fun n => by
  induction n with
  | zero => exact inferInstanceAs (JBlind (J.bottom _))
  | succ n ih => exact inferInstanceAs (JBlind (J.serviceWith (J.serviceN n)))

instance : JFieldsBlind J.annotatorFields := by unfold J.annotatorFields; infer_instance
instance : JBlind J.annotator :=
  struct_blind J.annotatorFields _ _

instance : JFieldsBlind J.annotationFields := by unfold J.annotationFields; infer_instance
instance : JBlind J.annotation :=
  struct_blind J.annotationFields _ _

instance : JFieldsBlind J.assessorFields := by unfold J.assessorFields; infer_instance
instance : JBlind J.assessor :=
  struct_blind J.assessorFields _ _

instance : JFieldsBlind J.attestationConformanceFields := by unfold J.attestationConformanceFields; infer_instance
instance : JBlind J.attestationConformance :=
  struct_blind J.attestationConformanceFields _ _

instance : JFieldsBlind J.attestationConfidenceFields := by unfold J.attestationConfidenceFields; infer_instance
instance : JBlind J.attestationConfidence :=
  struct_blind J.attestationConfidenceFields _ _

instance : JFieldsBlind J.attestationMapFields := by unfold J.attestationMapFields; infer_instance
instance : JBlind J.attestationMap :=
  struct_blind J.attestationMapFields _ _

instance : JFieldsBlind J.attestationFields := by unfold J.attestationFields; infer_instance
instance : JBlind J.attestation :=
  struct_blind J.attestationFields _ _

instance : JFieldsBlind J.compositionFields := by unfold J.compositionFields; infer_instance
instance : JBlind J.composition :=
  struct_blind J.compositionFields _ _

instance : JFieldsBlind J.claimFields := by unfold J.claimFields; infer_instance
instance : JBlind J.claim :=
  struct_blind J.claimFields _ _

instance : JFieldsBlind J.evidenceDataContentsFields := by unfold J.evidenceDataContentsFields; infer_instance
instance : JBlind J.evidenceDataContents :=
  struct_blind J.evidenceDataContentsFields _ _

instance : JFieldsBlind J.evidenceDataFields := by unfold J.evidenceDataFields; infer_instance
instance : JBlind J.evidenceData :=
  struct_blind J.evidenceDataFields _ _

instance : JFieldsBlind J.declarationEvidenceFields := by unfold J.declarationEvidenceFields; infer_instance
instance : JBlind J.declarationEvidence :=
  struct_blind J.declarationEvidenceFields _ _

instance : JFieldsBlind J.targetsFields := by unfold J.targetsFields; infer_instance
instance : JBlind J.targets :=
  struct_blind J.targetsFields _ _

instance : JFieldsBlind J.signatoryFields := by unfold J.signatoryFields; infer_instance
instance : JBlind J.signatory :=
  struct_blind J.signatoryFields _ _

instance : JFieldsBlind J.affirmationFields := by unfold J.affirmationFields; infer_instance
instance : JBlind J.affirmation :=
  struct_blind J.affirmationFields _ _

instance : JFieldsBlind J.declarationsFields := by unfold J.declarationsFields; infer_instance
instance : JBlind J.declarations :=
  struct_blind J.declarationsFields _ _

instance : JFieldsBlind J.priorityApplicationFields := by unfold J.priorityApplicationFields; infer_instance
instance : JBlind J.priorityApplication :=
  struct_blind J.priorityApplicationFields _ _

instance : JFieldsBlind J.patentFields := by unfold J.patentFields; infer_instance
instance : JBlind J.patent :=
  struct_blind J.patentFields _ _

instance : JFieldsBlind J.patentFamilyFields := by unfold J.patentFamilyFields; infer_instance
instance : JBlind J.patentFamily :=
  struct_blind J.patentFamilyFields _ _

example : JBlind J.patentChoice := inferInstance

instance : JFieldsBlind J.standardRequirementFields := by unfold J.standardRequirementFields; infer_instance
instance : JBlind J.standardRequirement :=
  struct_blind J.standardRequirementFields _ _

instance : JFieldsBlind J.standardLevelFields := by unfold J.standardLevelFields; infer_instance
instance : JBlind J.standardLevel :=
  struct_blind J.standardLevelFields _ _

instance : JFieldsBlind J.standardDefinitionFields := by unfold J.standardDefinitionFields; infer_instance
instance : JBlind J.standardDefinition :=
  struct_blind J.standardDefinitionFields _ _

instance : JFieldsBlind J.definitionsFields := by unfold J.definitionsFields; infer_instance
instance : JBlind J.definitions :=
  struct_blind J.definitionsFields _ _

instance : JFieldsBlind J.dependencyFields := by unfold J.dependencyFields; infer_instance
instance : JBlind J.dependency :=
  struct_blind J.dependencyFields _ _

instance : JFieldsBlind J.resourceReferenceChoiceFields := by unfold J.resourceReferenceChoiceFields; infer_instance
instance : JBlind J.resourceReferenceChoice :=
  struct_blind J.resourceReferenceChoiceFields _ _

example : JBlind J.environmentVariableChoice := inferInstance

instance : JFieldsBlind J.parameterFields := by unfold J.parameterFields; infer_instance
instance : JBlind J.parameter :=
  struct_blind J.parameterFields _ _

instance : JFieldsBlind J.taskInputFields := by unfold J.taskInputFields; infer_instance
instance : JBlind J.taskInput :=
  struct_blind J.taskInputFields _ _

instance : JFieldsBlind J.taskOutputFields := by unfold J.taskOutputFields; infer_instance
instance : JBlind J.taskOutput :=
  struct_blind J.taskOutputFields _ _

instance : JFieldsBlind J.taskCommandFields := by unfold J.taskCommandFields; infer_instance
instance : JBlind J.taskCommand :=
  struct_blind J.taskCommandFields _ _

instance : JFieldsBlind J.taskStepFields := by unfold J.taskStepFields; infer_instance
instance : JBlind J.taskStep :=
  struct_blind J.taskStepFields _ _

instance : JFieldsBlind J.eventFields := by unfold J.eventFields; infer_instance
instance : JBlind J.event :=
  struct_blind J.eventFields _ _

instance : JFieldsBlind J.taskTriggerConditionFields := by unfold J.taskTriggerConditionFields; infer_instance
instance : JBlind J.taskTriggerCondition :=
  struct_blind J.taskTriggerConditionFields _ _

instance : JFieldsBlind J.taskTriggerFields := by unfold J.taskTriggerFields; infer_instance
instance : JBlind J.taskTrigger :=
  struct_blind J.taskTriggerFields _ _

instance : JFieldsBlind J.volumeFields := by unfold J.volumeFields; infer_instance
instance : JBlind J.volume :=
  struct_blind J.volumeFields _ _

instance : JFieldsBlind J.taskWorkspaceFields := by unfold J.taskWorkspaceFields; infer_instance
instance : JBlind J.taskWorkspace :=
  struct_blind J.taskWorkspaceFields _ _

instance : JFieldsBlind J.taskFields := by unfold J.taskFields; infer_instance
instance : JBlind J.task :=
  struct_blind J.taskFields _ _

instance : JFieldsBlind J.workflowFields := by unfold J.workflowFields; infer_instance
instance : JBlind J.workflow :=
  struct_blind J.workflowFields _ _

instance : JFieldsBlind J.formulaFields := by unfold J.formulaFields; infer_instance
instance : JBlind J.formula :=
  struct_blind J.formulaFields _ _

instance : JFieldsBlind J.lifecycleFields := by unfold J.lifecycleFields; infer_instance
instance : JBlind J.lifecycle :=
  struct_blind J.lifecycleFields _ _

instance : JFieldsBlind J.toolFields := by unfold J.toolFields; infer_instance
instance : JBlind J.tool :=
  struct_blind J.toolFields _ _

instance : JFieldsBlind J.toolsChoiceFields := by unfold J.toolsChoiceFields; infer_instance
instance : JBlind J.toolsChoiceJSON :=
  struct_blind J.toolsChoiceFields _ _
example : JBlind J.toolsChoice := inferInstance

instance : JFieldsBlind J.distributionConstraintsFields := by unfold J.distributionConstraintsFields; infer_instance
instance : JBlind J.distributionConstraints :=
  struct_blind J.distributionConstraintsFields _ _

instance : JFieldsBlind J.metadataFields := by unfold J.metadataFields; infer_instance
instance : JBlind J.metadata :=
  struct_blind J.metadataFields _ _

instance : JFieldsBlind J.creditsFields := by unfold J.creditsFields; infer_instance
instance : JBlind J.credits :=
  struct_blind J.creditsFields _ _

instance : JFieldsBlind J.proofOfConceptFields := by unfold J.proofOfConceptFields; infer_instance
instance : JBlind J.proofOfConcept :=
  struct_blind J.proofOfConceptFields _ _

instance : JFieldsBlind J.vulnerabilityAnalysisFields := by unfold J.vulnerabilityAnalysisFields; infer_instance
instance : JBlind J.vulnerabilityAnalysis :=
  struct_blind J.vulnerabilityAnalysisFields _ _

instance : JFieldsBlind J.vulnerabilityRatingFields := by unfold J.vulnerabilityRatingFields; infer_instance
instance : JBlind J.vulnerabilityRating :=
  struct_blind J.vulnerabilityRatingFields _ _

instance : JFieldsBlind J.vulnerabilityReferenceFields := by unfold J.vulnerabilityReferenceFields; infer_instance
instance : JBlind J.vulnerabilityReference :=
  struct_blind J.vulnerabilityReferenceFields _ _

instance : JFieldsBlind J.vulnerabilityFields := by unfold J.vulnerabilityFields; infer_instance
instance : JBlind J.vulnerability :=
  struct_blind J.vulnerabilityFields _ _

instance : JFieldsBlind J.citationFields := by unfold J.citationFields; infer_instance
instance : JBlind J.citation :=
  struct_blind J.citationFields _ _

instance : JFieldsBlind (J.bomFields J.specVersion) := by unfold J.bomFields; infer_instance
instance : JBlind (J.bomWith J.specVersion) :=
  struct_blind (J.bomFields J.specVersion) _ _

end Verif
