import Verif.Xml.Blind

/-!
# Whether decoding XML fails does not depend on what the variable held: every codec

GENERATED by `tools/gen_xblind.py`; do not edit by hand.
-/

namespace Verif

variable [XFloatIO]

set_option linter.unusedSectionVars false
set_option synthInstance.maxSize 4000
set_option synthInstance.maxHeartbeats 400000

instance : XFieldsBlind X.advisoryFields := by unfold X.advisoryFields; infer_instance
instance : XBlind X.advisory := xstruct_blind X.advisoryFields _ _

instance : XFieldsBlind X.affectedVersionsFields := by unfold X.affectedVersionsFields; infer_instance
instance : XBlind X.affectedVersions := xstruct_blind X.affectedVersionsFields _ _

instance : XFieldsBlind X.affectsFields := by unfold X.affectsFields; infer_instance
instance : XBlind X.affects := xstruct_blind X.affectsFields _ _

instance : XFieldsBlind X.attachedTextFields := by unfold X.attachedTextFields; infer_instance
instance : XBlind X.attachedText := xstruct_blind X.attachedTextFields _ _

instance : XFieldsBlind X.propertyFields := by unfold X.propertyFields; infer_instance
instance : XBlind X.property := xstruct_blind X.propertyFields _ _

instance : XFieldsBlind X.componentDataContentsFields := by unfold X.componentDataContentsFields; infer_instance
instance : XBlind X.componentDataContents := xstruct_blind X.componentDataContentsFields _ _

instance : XFieldsBlind X.componentDataGraphicFields := by unfold X.componentDataGraphicFields; infer_instance
instance : XBlind X.componentDataGraphic := xstruct_blind X.componentDataGraphicFields _ _

instance : XFieldsBlind X.componentDataGraphicsFields := by unfold X.componentDataGraphicsFields; infer_instance
instance : XBlind X.componentDataGraphics := xstruct_blind X.componentDataGraphicsFields _ _

instance : XFieldsBlind X.organizationalContactFields := by unfold X.organizationalContactFields; infer_instance
instance : XBlind X.organizationalContact := xstruct_blind X.organizationalContactFields _ _

instance : XFieldsBlind X.postalAddressFields := by unfold X.postalAddressFields; infer_instance
instance : XBlind X.postalAddress := xstruct_blind X.postalAddressFields _ _

instance : XFieldsBlind X.organizationalEntityFields := by unfold X.organizationalEntityFields; infer_instance
instance : XBlind X.organizationalEntity := xstruct_blind X.organizationalEntityFields _ _

instance : XFieldsBlind X.componentDataGovernanceResponsiblePartyFields := by unfold X.componentDataGovernanceResponsiblePartyFields; infer_instance
instance : XBlind X.componentDataGovernanceResponsibleParty := xstruct_blind X.componentDataGovernanceResponsiblePartyFields _ _

instance : XFieldsBlind X.dataGovernanceFields := by unfold X.dataGovernanceFields; infer_instance
instance : XBlind X.dataGovernance := xstruct_blind X.dataGovernanceFields _ _

instance : XFieldsBlind X.componentDataFields := by unfold X.componentDataFields; infer_instance
instance : XBlind X.componentData := xstruct_blind X.componentDataFields _ _

instance : XFieldsBlind X.hashFields := by unfold X.hashFields; infer_instance
instance : XBlind X.hash := xstruct_blind X.hashFields _ _

instance : XFieldsBlind X.relatedCryptographicAssetFields := by unfold X.relatedCryptographicAssetFields; infer_instance
instance : XBlind X.relatedCryptographicAsset := xstruct_blind X.relatedCryptographicAssetFields _ _

instance : XFieldsBlind X.certificatePropertiesFields := by unfold X.certificatePropertiesFields; infer_instance
instance : XBlind X.certificateProperties := xstruct_blind X.certificatePropertiesFields _ _

instance : XFieldsBlind X.cryptoAlgorithmPropertiesFields := by unfold X.cryptoAlgorithmPropertiesFields; infer_instance
instance : XBlind X.cryptoAlgorithmProperties := xstruct_blind X.cryptoAlgorithmPropertiesFields _ _

instance : XFieldsBlind X.cipherSuiteFields := by unfold X.cipherSuiteFields; infer_instance
instance : XBlind X.cipherSuite := xstruct_blind X.cipherSuiteFields _ _

instance : XBlind X.ikev2Auth := xikev2_blind X.ikev2AuthFields _ _ _

instance : XBlind X.ikev2Enc := xikev2_blind X.ikev2EncFields _ _ _

instance : XBlind X.ikev2Integ := xikev2_blind X.ikev2IntegFields _ _ _

instance : XBlind X.ikev2Ke := xikev2_blind X.ikev2KeFields _ _ _

instance : XBlind X.ikev2Prf := xikev2_blind X.ikev2PrfFields _ _ _

instance : XFieldsBlind X.ikev2TransformTypesFields := by unfold X.ikev2TransformTypesFields; infer_instance
instance : XBlind X.ikev2TransformTypes := xstruct_blind X.ikev2TransformTypesFields _ _

instance : XFieldsBlind X.cryptoProtocolPropertiesFields := by unfold X.cryptoProtocolPropertiesFields; infer_instance
instance : XBlind X.cryptoProtocolProperties := xstruct_blind X.cryptoProtocolPropertiesFields _ _

instance : XFieldsBlind X.securedByFields := by unfold X.securedByFields; infer_instance
instance : XBlind X.securedBy := xstruct_blind X.securedByFields _ _

instance : XFieldsBlind X.relatedCryptoMaterialPropertiesFields := by unfold X.relatedCryptoMaterialPropertiesFields; infer_instance
instance : XBlind X.relatedCryptoMaterialProperties := xstruct_blind X.relatedCryptoMaterialPropertiesFields _ _

instance : XFieldsBlind X.cryptoPropertiesFields := by unfold X.cryptoPropertiesFields; infer_instance
instance : XBlind X.cryptoProperties := xstruct_blind X.cryptoPropertiesFields _ _

instance : XFieldsBlind X.callstackFrameFields := by unfold X.callstackFrameFields; infer_instance
instance : XBlind X.callstackFrame := xstruct_blind X.callstackFrameFields _ _

instance : XFieldsBlind X.callstackFields := by unfold X.callstackFields; infer_instance
instance : XBlind X.callstack := xstruct_blind X.callstackFields _ _

instance : XFieldsBlind X.evidenceIdentityMethodFields := by unfold X.evidenceIdentityMethodFields; infer_instance
instance : XBlind X.evidenceIdentityMethod := xstruct_blind X.evidenceIdentityMethodFields _ _

instance : XFieldsBlind X.evidenceIdentityFields := by unfold X.evidenceIdentityFields; infer_instance
instance : XBlind X.evidenceIdentity := xstruct_blind X.evidenceIdentityFields _ _

instance : XFieldsBlind X.evidenceOccurrenceFields := by unfold X.evidenceOccurrenceFields; infer_instance
instance : XBlind X.evidenceOccurrence := xstruct_blind X.evidenceOccurrenceFields _ _

instance : XFieldsBlind X.organizationalEntityOrContactFields := by unfold X.organizationalEntityOrContactFields; infer_instance
instance : XBlind X.organizationalEntityOrContact := xstruct_blind X.organizationalEntityOrContactFields _ _

instance : XFieldsBlind X.licensingFields := by unfold X.licensingFields; infer_instance
instance : XBlind X.licensing := xstruct_blind X.licensingFields _ _

instance : XFieldsBlind X.licenseFields := by unfold X.licenseFields; infer_instance
instance : XBlind X.licenseAlias := xstruct_blind X.licenseFields _ _

instance : XBlind X.license := ⟨fun x a b => XBlind.blind (c := X.licenseAlias) x a b⟩

instance : XFieldsBlind X.externalReferenceFields := by unfold X.externalReferenceFields; infer_instance
instance : XBlind X.externalReference := xstruct_blind X.externalReferenceFields _ _

instance : XFieldsBlind X.mlModelCO2MeasureFields := by unfold X.mlModelCO2MeasureFields; infer_instance
instance : XBlind X.mlModelCO2Measure := xstruct_blind X.mlModelCO2MeasureFields _ _

instance : XFieldsBlind X.mlModelEnergyMeasureFields := by unfold X.mlModelEnergyMeasureFields; infer_instance
instance : XBlind X.mlModelEnergyMeasure := xstruct_blind X.mlModelEnergyMeasureFields _ _

instance : XFieldsBlind X.mlModelEnergyProviderFields := by unfold X.mlModelEnergyProviderFields; infer_instance
instance : XBlind X.mlModelEnergyProvider := xstruct_blind X.mlModelEnergyProviderFields _ _

instance : XFieldsBlind X.mlModelEnergyConsumptionFields := by unfold X.mlModelEnergyConsumptionFields; infer_instance
instance : XBlind X.mlModelEnergyConsumption := xstruct_blind X.mlModelEnergyConsumptionFields _ _

instance : XFieldsBlind X.mlModelCardEnvironmentalConsiderationsFields := by unfold X.mlModelCardEnvironmentalConsiderationsFields; infer_instance
instance : XBlind X.mlModelCardEnvironmentalConsiderations := xstruct_blind X.mlModelCardEnvironmentalConsiderationsFields _ _

instance : XFieldsBlind X.mlModelCardEthicalConsiderationFields := by unfold X.mlModelCardEthicalConsiderationFields; infer_instance
instance : XBlind X.mlModelCardEthicalConsideration := xstruct_blind X.mlModelCardEthicalConsiderationFields _ _

instance : XFieldsBlind X.mlModelCardFairnessAssessmentFields := by unfold X.mlModelCardFairnessAssessmentFields; infer_instance
instance : XBlind X.mlModelCardFairnessAssessment := xstruct_blind X.mlModelCardFairnessAssessmentFields _ _

instance : XFieldsBlind X.mlModelCardConsiderationsFields := by unfold X.mlModelCardConsiderationsFields; infer_instance
instance : XBlind X.mlModelCardConsiderations := xstruct_blind X.mlModelCardConsiderationsFields _ _

instance : XFieldsBlind X.mlInputOutputParametersFields := by unfold X.mlInputOutputParametersFields; infer_instance
instance : XBlind X.mlInputOutputParameters := xstruct_blind X.mlInputOutputParametersFields _ _

instance : XFieldsBlind X.mlModelParametersApproachFields := by unfold X.mlModelParametersApproachFields; infer_instance
instance : XBlind X.mlModelParametersApproach := xstruct_blind X.mlModelParametersApproachFields _ _

instance : XFieldsBlind X.mlModelParametersFields := by unfold X.mlModelParametersFields; infer_instance
instance : XBlind X.mlModelParameters := xstruct_blind X.mlModelParametersFields _ _

instance : XFieldsBlind X.mlPerformanceMetricConfidenceIntervalFields := by unfold X.mlPerformanceMetricConfidenceIntervalFields; infer_instance
instance : XBlind X.mlPerformanceMetricConfidenceInterval := xstruct_blind X.mlPerformanceMetricConfidenceIntervalFields _ _

instance : XFieldsBlind X.mlPerformanceMetricFields := by unfold X.mlPerformanceMetricFields; infer_instance
instance : XBlind X.mlPerformanceMetric := xstruct_blind X.mlPerformanceMetricFields _ _

instance : XFieldsBlind X.mlQuantitativeAnalysisFields := by unfold X.mlQuantitativeAnalysisFields; infer_instance
instance : XBlind X.mlQuantitativeAnalysis := xstruct_blind X.mlQuantitativeAnalysisFields _ _

instance : XFieldsBlind X.mlModelCardFields := by unfold X.mlModelCardFields; infer_instance
instance : XBlind X.mlModelCard := xstruct_blind X.mlModelCardFields _ _

instance : XFieldsBlind X.identifiableActionFields := by unfold X.identifiableActionFields; infer_instance
instance : XBlind X.identifiableAction := xstruct_blind X.identifiableActionFields _ _

instance : XFieldsBlind X.commitFields := by unfold X.commitFields; infer_instance
instance : XBlind X.commit := xstruct_blind X.commitFields _ _

instance : XFieldsBlind X.diffFields := by unfold X.diffFields; infer_instance
instance : XBlind X.diff := xstruct_blind X.diffFields _ _

instance : XFieldsBlind X.sourceFields := by unfold X.sourceFields; infer_instance
instance : XBlind X.source := xstruct_blind X.sourceFields _ _

instance : XFieldsBlind X.issueFields := by unfold X.issueFields; infer_instance
instance : XBlind X.issue := xstruct_blind X.issueFields _ _

instance : XFieldsBlind X.patchFields := by unfold X.patchFields; infer_instance
instance : XBlind X.patch := xstruct_blind X.patchFields _ _

instance (C : XCodec Component) [XBlind C] : XFieldsBlind (X.pedigreeFields C) := by unfold X.pedigreeFields; infer_instance
instance (C : XCodec Component) [XBlind C] : XBlind (X.pedigree C) := xstruct_blind (X.pedigreeFields C) _ _

instance : XFieldsBlind X.noteFields := by unfold X.noteFields; infer_instance
instance : XBlind X.note := xstruct_blind X.noteFields _ _

instance : XFieldsBlind X.releaseNotesFields := by unfold X.releaseNotesFields; infer_instance
instance : XBlind X.releaseNotes := xstruct_blind X.releaseNotesFields _ _

instance : XFieldsBlind X.swidFields := by unfold X.swidFields; infer_instance
instance : XBlind X.swid := xstruct_blind X.swidFields _ _

instance : XFieldsBlind X.patentAssertionFields := by unfold X.patentAssertionFields; infer_instance
instance : XBlind X.patentAssertion := xstruct_blind X.patentAssertionFields _ _

instance (C : XCodec Component) [XBlind C] : XFieldsBlind (X.componentFields C) := by unfold X.componentFields; infer_instance
instance (C : XCodec Component) [XBlind C] : XBlind (X.componentWith C) := xstruct_blind (X.componentFields C) _ _

instance : XBlind X.component := xknot_blind fun n => by
  induction n with
  | zero => exact inferInstanceAs (XBlind (X.bottom _))
  | succ n ih => exact inferInstanceAs (XBlind (X.componentWith (X.componentN n)))

instance (C : XCodec Service) [XBlind C] : XFieldsBlind (X.serviceFields C) := by unfold X.serviceFields; infer_instance
instance (C : XCodec Service) [XBlind C] : XBlind (X.serviceWith C) := xstruct_blind (X.serviceFields C) _ _

instance : XBlind X.service := xknot_blind fun n => by
  induction n with
  | zero => exact inferInstanceAs (XBlind (X.bottom _))
  | succ n ih => exact inferInstanceAs (XBlind (X.serviceWith (X.serviceN n)))

instance : XFieldsBlind X.annotatorFields := by unfold X.annotatorFields; infer_instance
instance : XBlind X.annotator := xstruct_blind X.annotatorFields _ _

instance : XFieldsBlind X.annotationFields := by unfold X.annotationFields; infer_instance
instance : XBlind X.annotation := xstruct_blind X.annotationFields _ _

instance : XFieldsBlind X.assessorFields := by unfold X.assessorFields; infer_instance
instance : XBlind X.assessor := xstruct_blind X.assessorFields _ _

instance : XFieldsBlind X.attestationConformanceFields := by unfold X.attestationConformanceFields; infer_instance
instance : XBlind X.attestationConformance := xstruct_blind X.attestationConformanceFields _ _

instance : XFieldsBlind X.attestationConfidenceFields := by unfold X.attestationConfidenceFields; infer_instance
instance : XBlind X.attestationConfidence := xstruct_blind X.attestationConfidenceFields _ _

instance : XFieldsBlind X.attestationMapFields := by unfold X.attestationMapFields; infer_instance
instance : XBlind X.attestationMap := xstruct_blind X.attestationMapFields _ _

instance : XFieldsBlind X.attestationFields := by unfold X.attestationFields; infer_instance
instance : XBlind X.attestation := xstruct_blind X.attestationFields _ _

instance : XFieldsBlind X.compositionFields := by unfold X.compositionFields; infer_instance
instance : XBlind X.composition := xstruct_blind X.compositionFields _ _

instance : XFieldsBlind X.claimFields := by unfold X.claimFields; infer_instance
instance : XBlind X.claim := xstruct_blind X.claimFields _ _

instance : XFieldsBlind X.evidenceDataContentsFields := by unfold X.evidenceDataContentsFields; infer_instance
instance : XBlind X.evidenceDataContents := xstruct_blind X.evidenceDataContentsFields _ _

instance : XFieldsBlind X.evidenceDataFields := by unfold X.evidenceDataFields; infer_instance
instance : XBlind X.evidenceData := xstruct_blind X.evidenceDataFields _ _

instance : XFieldsBlind X.declarationEvidenceFields := by unfold X.declarationEvidenceFields; infer_instance
instance : XBlind X.declarationEvidence := xstruct_blind X.declarationEvidenceFields _ _

instance : XFieldsBlind X.targetsFields := by unfold X.targetsFields; infer_instance
instance : XBlind X.targets := xstruct_blind X.targetsFields _ _

instance : XFieldsBlind X.signatoryFields := by unfold X.signatoryFields; infer_instance
instance : XBlind X.signatory := xstruct_blind X.signatoryFields _ _

instance : XFieldsBlind X.affirmationFields := by unfold X.affirmationFields; infer_instance
instance : XBlind X.affirmation := xstruct_blind X.affirmationFields _ _

instance : XFieldsBlind X.declarationsFields := by unfold X.declarationsFields; infer_instance
instance : XBlind X.declarations := xstruct_blind X.declarationsFields _ _

instance : XFieldsBlind X.priorityApplicationFields := by unfold X.priorityApplicationFields; infer_instance
instance : XBlind X.priorityApplication := xstruct_blind X.priorityApplicationFields _ _

instance : XFieldsBlind X.patentFields := by unfold X.patentFields; infer_instance
instance : XBlind X.patent := xstruct_blind X.patentFields _ _

instance : XFieldsBlind X.patentFamilyFields := by unfold X.patentFamilyFields; infer_instance
instance : XBlind X.patentFamily := xstruct_blind X.patentFamilyFields _ _

instance : XFieldsBlind X.standardRequirementFields := by unfold X.standardRequirementFields; infer_instance
instance : XBlind X.standardRequirement := xstruct_blind X.standardRequirementFields _ _

instance : XFieldsBlind X.standardLevelFields := by unfold X.standardLevelFields; infer_instance
instance : XBlind X.standardLevel := xstruct_blind X.standardLevelFields _ _

instance : XFieldsBlind X.standardDefinitionFields := by unfold X.standardDefinitionFields; infer_instance
instance : XBlind X.standardDefinition := xstruct_blind X.standardDefinitionFields _ _

instance : XFieldsBlind X.resourceReferenceChoiceFields := by unfold X.resourceReferenceChoiceFields; infer_instance
instance : XBlind X.resourceReferenceChoice := xstruct_blind X.resourceReferenceChoiceFields _ _

instance : XFieldsBlind X.parameterFields := by unfold X.parameterFields; infer_instance
instance : XBlind X.parameter := xstruct_blind X.parameterFields _ _

instance : XFieldsBlind X.taskInputFields := by unfold X.taskInputFields; infer_instance
instance : XBlind X.taskInput := xstruct_blind X.taskInputFields _ _

instance : XFieldsBlind X.taskOutputFields := by unfold X.taskOutputFields; infer_instance
instance : XBlind X.taskOutput := xstruct_blind X.taskOutputFields _ _

instance : XFieldsBlind X.taskCommandFields := by unfold X.taskCommandFields; infer_instance
instance : XBlind X.taskCommand := xstruct_blind X.taskCommandFields _ _

instance : XFieldsBlind X.taskStepFields := by unfold X.taskStepFields; infer_instance
instance : XBlind X.taskStep := xstruct_blind X.taskStepFields _ _

instance : XFieldsBlind X.eventFields := by unfold X.eventFields; infer_instance
instance : XBlind X.event := xstruct_blind X.eventFields _ _

instance : XFieldsBlind X.taskTriggerConditionFields := by unfold X.taskTriggerConditionFields; infer_instance
instance : XBlind X.taskTriggerCondition := xstruct_blind X.taskTriggerConditionFields _ _

instance : XFieldsBlind X.taskTriggerFields := by unfold X.taskTriggerFields; infer_instance
instance : XBlind X.taskTrigger := xstruct_blind X.taskTriggerFields _ _

instance : XFieldsBlind X.volumeFields := by unfold X.volumeFields; infer_instance
instance : XBlind X.volume := xstruct_blind X.volumeFields _ _

instance : XFieldsBlind X.taskWorkspaceFields := by unfold X.taskWorkspaceFields; infer_instance
instance : XBlind X.taskWorkspace := xstruct_blind X.taskWorkspaceFields _ _

instance : XFieldsBlind X.taskFields := by unfold X.taskFields; infer_instance
instance : XBlind X.task := xstruct_blind X.taskFields _ _

instance : XFieldsBlind X.workflowFields := by unfold X.workflowFields; infer_instance
instance : XBlind X.workflow := xstruct_blind X.workflowFields _ _

instance : XFieldsBlind X.formulaFields := by unfold X.formulaFields; infer_instance
instance : XBlind X.formula := xstruct_blind X.formulaFields _ _

instance : XFieldsBlind X.lifecycleFields := by unfold X.lifecycleFields; infer_instance
instance : XBlind X.lifecycle := xstruct_blind X.lifecycleFields _ _

instance : XFieldsBlind X.toolFields := by unfold X.toolFields; infer_instance
instance : XBlind X.tool := xstruct_blind X.toolFields _ _

instance : XFieldsBlind X.distributionConstraintsFields := by unfold X.distributionConstraintsFields; infer_instance
instance : XBlind X.distributionConstraints := xstruct_blind X.distributionConstraintsFields _ _

instance : XFieldsBlind X.metadataFields := by unfold X.metadataFields; infer_instance
instance : XBlind X.metadata := xstruct_blind X.metadataFields _ _

instance : XFieldsBlind X.creditsFields := by unfold X.creditsFields; infer_instance
instance : XBlind X.credits := xstruct_blind X.creditsFields _ _

instance : XFieldsBlind X.proofOfConceptFields := by unfold X.proofOfConceptFields; infer_instance
instance : XBlind X.proofOfConcept := xstruct_blind X.proofOfConceptFields _ _

instance : XFieldsBlind X.vulnerabilityAnalysisFields := by unfold X.vulnerabilityAnalysisFields; infer_instance
instance : XBlind X.vulnerabilityAnalysis := xstruct_blind X.vulnerabilityAnalysisFields _ _

instance : XFieldsBlind X.vulnerabilityRatingFields := by unfold X.vulnerabilityRatingFields; infer_instance
instance : XBlind X.vulnerabilityRating := xstruct_blind X.vulnerabilityRatingFields _ _

instance : XFieldsBlind X.vulnerabilityReferenceFields := by unfold X.vulnerabilityReferenceFields; infer_instance
instance : XBlind X.vulnerabilityReference := xstruct_blind X.vulnerabilityReferenceFields _ _

instance : XFieldsBlind X.vulnerabilityFields := by unfold X.vulnerabilityFields; infer_instance
instance : XBlind X.vulnerability := xstruct_blind X.vulnerabilityFields _ _

instance : XFieldsBlind X.citationFields := by unfold X.citationFields; infer_instance
instance : XBlind X.citation := xstruct_blind X.citationFields _ _

instance : XFieldsBlind X.bomFields := by unfold X.bomFields; infer_instance
instance : XBlind X.bom := xstruct_blind X.bomFields _ _

end Verif
