import Verif.Xml.Total

/-!
# Types that any element can be decoded into

GENERATED by `tools/gen_xread.py`; do not edit by hand.
-/

namespace Verif

variable [XFloatIO]

set_option linter.unusedSectionVars false
set_option synthInstance.maxSize 4000
set_option synthInstance.maxHeartbeats 400000

instance : XFieldsTotal X.advisoryFields := by unfold X.advisoryFields; infer_instance
instance : XTotal X.advisory := xstruct_total X.advisoryFields _ _

instance : XFieldsTotal X.affectedVersionsFields := by unfold X.affectedVersionsFields; infer_instance
instance : XTotal X.affectedVersions := xstruct_total X.affectedVersionsFields _ _

instance : XFieldsTotal X.affectsFields := by unfold X.affectsFields; infer_instance
instance : XTotal X.affects := xstruct_total X.affectsFields _ _

instance : XFieldsTotal X.attachedTextFields := by unfold X.attachedTextFields; infer_instance
instance : XTotal X.attachedText := xstruct_total X.attachedTextFields _ _

instance : XFieldsTotal X.propertyFields := by unfold X.propertyFields; infer_instance
instance : XTotal X.property := xstruct_total X.propertyFields _ _

instance : XFieldsTotal X.componentDataContentsFields := by unfold X.componentDataContentsFields; infer_instance
instance : XTotal X.componentDataContents := xstruct_total X.componentDataContentsFields _ _

instance : XFieldsTotal X.componentDataGraphicFields := by unfold X.componentDataGraphicFields; infer_instance
instance : XTotal X.componentDataGraphic := xstruct_total X.componentDataGraphicFields _ _

instance : XFieldsTotal X.componentDataGraphicsFields := by unfold X.componentDataGraphicsFields; infer_instance
instance : XTotal X.componentDataGraphics := xstruct_total X.componentDataGraphicsFields _ _

instance : XFieldsTotal X.organizationalContactFields := by unfold X.organizationalContactFields; infer_instance
instance : XTotal X.organizationalContact := xstruct_total X.organizationalContactFields _ _

instance : XFieldsTotal X.postalAddressFields := by unfold X.postalAddressFields; infer_instance
instance : XTotal X.postalAddress := xstruct_total X.postalAddressFields _ _

instance : XFieldsTotal X.organizationalEntityFields := by unfold X.organizationalEntityFields; infer_instance
instance : XTotal X.organizationalEntity := xstruct_total X.organizationalEntityFields _ _

instance : XFieldsTotal X.componentDataGovernanceResponsiblePartyFields := by unfold X.componentDataGovernanceResponsiblePartyFields; infer_instance
instance : XTotal X.componentDataGovernanceResponsibleParty := xstruct_total X.componentDataGovernanceResponsiblePartyFields _ _

instance : XFieldsTotal X.dataGovernanceFields := by unfold X.dataGovernanceFields; infer_instance
instance : XTotal X.dataGovernance := xstruct_total X.dataGovernanceFields _ _

instance : XFieldsTotal X.componentDataFields := by unfold X.componentDataFields; infer_instance
instance : XTotal X.componentData := xstruct_total X.componentDataFields _ _

instance : XFieldsTotal X.hashFields := by unfold X.hashFields; infer_instance
instance : XTotal X.hash := xstruct_total X.hashFields _ _

instance : XFieldsTotal X.relatedCryptographicAssetFields := by unfold X.relatedCryptographicAssetFields; infer_instance
instance : XTotal X.relatedCryptographicAsset := xstruct_total X.relatedCryptographicAssetFields _ _

instance : XFieldsTotal X.certificatePropertiesFields := by unfold X.certificatePropertiesFields; infer_instance
instance : XTotal X.certificateProperties := xstruct_total X.certificatePropertiesFields _ _

instance : XFieldsTotal X.cipherSuiteFields := by unfold X.cipherSuiteFields; infer_instance
instance : XTotal X.cipherSuite := xstruct_total X.cipherSuiteFields _ _

instance : XFieldsTotal X.ikev2AuthFields := by unfold X.ikev2AuthFields; infer_instance
instance : XTotal X.ikev2Auth := xikev2_total X.ikev2AuthFields _ _ _

instance : XFieldsTotal X.ikev2IntegFields := by unfold X.ikev2IntegFields; infer_instance
instance : XTotal X.ikev2Integ := xikev2_total X.ikev2IntegFields _ _ _

instance : XFieldsTotal X.ikev2PrfFields := by unfold X.ikev2PrfFields; infer_instance
instance : XTotal X.ikev2Prf := xikev2_total X.ikev2PrfFields _ _ _

instance : XFieldsTotal X.securedByFields := by unfold X.securedByFields; infer_instance
instance : XTotal X.securedBy := xstruct_total X.securedByFields _ _

instance : XFieldsTotal X.organizationalEntityOrContactFields := by unfold X.organizationalEntityOrContactFields; infer_instance
instance : XTotal X.organizationalEntityOrContact := xstruct_total X.organizationalEntityOrContactFields _ _

instance : XFieldsTotal X.licensingFields := by unfold X.licensingFields; infer_instance
instance : XTotal X.licensing := xstruct_total X.licensingFields _ _

instance : XFieldsTotal X.licenseFields := by unfold X.licenseFields; infer_instance
instance : XTotal X.licenseAlias := xstruct_total X.licenseFields _ _

instance : XTotal X.license := ⟨fun x a => XTotal.total (c := X.licenseAlias) x a⟩

instance : XFieldsTotal X.externalReferenceFields := by unfold X.externalReferenceFields; infer_instance
instance : XTotal X.externalReference := xstruct_total X.externalReferenceFields _ _

instance : XFieldsTotal X.mlModelCardEthicalConsiderationFields := by unfold X.mlModelCardEthicalConsiderationFields; infer_instance
instance : XTotal X.mlModelCardEthicalConsideration := xstruct_total X.mlModelCardEthicalConsiderationFields _ _

instance : XFieldsTotal X.mlModelCardFairnessAssessmentFields := by unfold X.mlModelCardFairnessAssessmentFields; infer_instance
instance : XTotal X.mlModelCardFairnessAssessment := xstruct_total X.mlModelCardFairnessAssessmentFields _ _

instance : XTotal X.mlDatasetChoice := ⟨fun x a => by
  have : XFieldsTotal X.mlDatasetChoiceFields := by unfold X.mlDatasetChoiceFields; infer_instance
  have h := xdec_total X.mlDatasetChoiceFields x X.mlDatasetChoiceFields.zero
  simp only [X.mlDatasetChoice]
  split
  · rename_i e; rw [e] at h; cases h
  · split
    · rfl
    · split <;> rfl⟩

instance : XFieldsTotal X.mlInputOutputParametersFields := by unfold X.mlInputOutputParametersFields; infer_instance
instance : XTotal X.mlInputOutputParameters := xstruct_total X.mlInputOutputParametersFields _ _

instance : XFieldsTotal X.mlModelParametersApproachFields := by unfold X.mlModelParametersApproachFields; infer_instance
instance : XTotal X.mlModelParametersApproach := xstruct_total X.mlModelParametersApproachFields _ _

instance : XFieldsTotal X.mlModelParametersFields := by unfold X.mlModelParametersFields; infer_instance
instance : XTotal X.mlModelParameters := xstruct_total X.mlModelParametersFields _ _

instance : XFieldsTotal X.mlPerformanceMetricConfidenceIntervalFields := by unfold X.mlPerformanceMetricConfidenceIntervalFields; infer_instance
instance : XTotal X.mlPerformanceMetricConfidenceInterval := xstruct_total X.mlPerformanceMetricConfidenceIntervalFields _ _

instance : XFieldsTotal X.mlPerformanceMetricFields := by unfold X.mlPerformanceMetricFields; infer_instance
instance : XTotal X.mlPerformanceMetric := xstruct_total X.mlPerformanceMetricFields _ _

instance : XFieldsTotal X.mlQuantitativeAnalysisFields := by unfold X.mlQuantitativeAnalysisFields; infer_instance
instance : XTotal X.mlQuantitativeAnalysis := xstruct_total X.mlQuantitativeAnalysisFields _ _

instance : XFieldsTotal X.identifiableActionFields := by unfold X.identifiableActionFields; infer_instance
instance : XTotal X.identifiableAction := xstruct_total X.identifiableActionFields _ _

instance : XFieldsTotal X.commitFields := by unfold X.commitFields; infer_instance
instance : XTotal X.commit := xstruct_total X.commitFields _ _

instance : XFieldsTotal X.diffFields := by unfold X.diffFields; infer_instance
instance : XTotal X.diff := xstruct_total X.diffFields _ _

instance : XFieldsTotal X.sourceFields := by unfold X.sourceFields; infer_instance
instance : XTotal X.source := xstruct_total X.sourceFields _ _

instance : XFieldsTotal X.issueFields := by unfold X.issueFields; infer_instance
instance : XTotal X.issue := xstruct_total X.issueFields _ _

instance : XFieldsTotal X.patchFields := by unfold X.patchFields; infer_instance
instance : XTotal X.patch := xstruct_total X.patchFields _ _

instance : XFieldsTotal X.noteFields := by unfold X.noteFields; infer_instance
instance : XTotal X.note := xstruct_total X.noteFields _ _

instance : XFieldsTotal X.releaseNotesFields := by unfold X.releaseNotesFields; infer_instance
instance : XTotal X.releaseNotes := xstruct_total X.releaseNotesFields _ _

instance : XTotal X.asserterChoice := ⟨fun x a => by
  have : XFieldsTotal X.asserterChoiceRaw := by unfold X.asserterChoiceRaw; infer_instance
  have h := xdec_total X.asserterChoiceRaw x X.asserterChoiceRaw.zero
  simp only [X.asserterChoice]
  split
  · rename_i e; rw [e] at h; cases h
  · rfl⟩

instance : XFieldsTotal X.patentAssertionFields := by unfold X.patentAssertionFields; infer_instance
instance : XTotal X.patentAssertion := xstruct_total X.patentAssertionFields _ _

instance : XFieldsTotal X.compositionFields := by unfold X.compositionFields; infer_instance
instance : XTotal X.composition := xstruct_total X.compositionFields _ _

instance : XFieldsTotal X.claimFields := by unfold X.claimFields; infer_instance
instance : XTotal X.claim := xstruct_total X.claimFields _ _

instance : XFieldsTotal X.evidenceDataContentsFields := by unfold X.evidenceDataContentsFields; infer_instance
instance : XTotal X.evidenceDataContents := xstruct_total X.evidenceDataContentsFields _ _

instance : XFieldsTotal X.signatoryFields := by unfold X.signatoryFields; infer_instance
instance : XTotal X.signatory := xstruct_total X.signatoryFields _ _

instance : XFieldsTotal X.affirmationFields := by unfold X.affirmationFields; infer_instance
instance : XTotal X.affirmation := xstruct_total X.affirmationFields _ _

instance : XFieldsTotal X.priorityApplicationFields := by unfold X.priorityApplicationFields; infer_instance
instance : XTotal X.priorityApplication := xstruct_total X.priorityApplicationFields _ _

instance : XFieldsTotal X.patentFields := by unfold X.patentFields; infer_instance
instance : XTotal X.patent := xstruct_total X.patentFields _ _

instance : XFieldsTotal X.patentFamilyFields := by unfold X.patentFamilyFields; infer_instance
instance : XTotal X.patentFamily := xstruct_total X.patentFamilyFields _ _

instance : XFieldsTotal X.standardRequirementFields := by unfold X.standardRequirementFields; infer_instance
instance : XTotal X.standardRequirement := xstruct_total X.standardRequirementFields _ _

instance : XFieldsTotal X.standardLevelFields := by unfold X.standardLevelFields; infer_instance
instance : XTotal X.standardLevel := xstruct_total X.standardLevelFields _ _

instance : XFieldsTotal X.standardDefinitionFields := by unfold X.standardDefinitionFields; infer_instance
instance : XTotal X.standardDefinition := xstruct_total X.standardDefinitionFields _ _

instance : XFieldsTotal X.resourceReferenceChoiceFields := by unfold X.resourceReferenceChoiceFields; infer_instance
instance : XTotal X.resourceReferenceChoice := xstruct_total X.resourceReferenceChoiceFields _ _

instance : XFieldsTotal X.parameterFields := by unfold X.parameterFields; infer_instance
instance : XTotal X.parameter := xstruct_total X.parameterFields _ _

instance : XFieldsTotal X.taskCommandFields := by unfold X.taskCommandFields; infer_instance
instance : XTotal X.taskCommand := xstruct_total X.taskCommandFields _ _

instance : XFieldsTotal X.taskStepFields := by unfold X.taskStepFields; infer_instance
instance : XTotal X.taskStep := xstruct_total X.taskStepFields _ _

instance : XFieldsTotal X.eventFields := by unfold X.eventFields; infer_instance
instance : XTotal X.event := xstruct_total X.eventFields _ _

instance : XFieldsTotal X.taskTriggerConditionFields := by unfold X.taskTriggerConditionFields; infer_instance
instance : XTotal X.taskTriggerCondition := xstruct_total X.taskTriggerConditionFields _ _

instance : XFieldsTotal X.lifecycleFields := by unfold X.lifecycleFields; infer_instance
instance : XTotal X.lifecycle := xstruct_total X.lifecycleFields _ _

instance : XFieldsTotal X.toolFields := by unfold X.toolFields; infer_instance
instance : XTotal X.tool := xstruct_total X.toolFields _ _

instance : XFieldsTotal X.distributionConstraintsFields := by unfold X.distributionConstraintsFields; infer_instance
instance : XTotal X.distributionConstraints := xstruct_total X.distributionConstraintsFields _ _

instance : XFieldsTotal X.creditsFields := by unfold X.creditsFields; infer_instance
instance : XTotal X.credits := xstruct_total X.creditsFields _ _

instance : XFieldsTotal X.proofOfConceptFields := by unfold X.proofOfConceptFields; infer_instance
instance : XTotal X.proofOfConcept := xstruct_total X.proofOfConceptFields _ _

instance : XFieldsTotal X.vulnerabilityAnalysisFields := by unfold X.vulnerabilityAnalysisFields; infer_instance
instance : XTotal X.vulnerabilityAnalysis := xstruct_total X.vulnerabilityAnalysisFields _ _

instance : XFieldsTotal X.vulnerabilityReferenceFields := by unfold X.vulnerabilityReferenceFields; infer_instance
instance : XTotal X.vulnerabilityReference := xstruct_total X.vulnerabilityReferenceFields _ _

instance : XFieldsTotal X.citationFields := by unfold X.citationFields; infer_instance
instance : XTotal X.citation := xstruct_total X.citationFields _ _

end Verif
