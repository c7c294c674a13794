xml_elements_advisory
xml_elements_affectedVersions
xml_elements_affects
xml_elements_attachedText
xml_elements_property
xml_elements_componentDataContents
xml_elements_componentDataGraphic
xml_elements_componentDataGraphics
xml_elements_organizationalContact
xml_elements_postalAddress
xml_elements_organizationalEntity
xml_elements_componentDataGovernanceResponsibleParty
xml_elements_dataGovernance
xml_elements_componentData
xml_elements_hash
xml_elements_relatedCryptographicAsset
xml_elements_certificateProperties
xml_elements_cryptoAlgorithmProperties
xml_elements_cipherSuite
xml_elements_ikev2Auth
xml_elements_ikev2Enc
xml_elements_ikev2Integ
xml_elements_ikev2Ke
xml_elements_ikev2Prf
xml_elements_ikev2TransformTypes
xml_elements_cryptoProtocolProperties
xml_elements_securedBy
xml_elements_relatedCryptoMaterialProperties
xml_elements_cryptoProperties
xml_elements_callstackFrame
xml_elements_callstack
xml_elements_evidenceIdentityMethod
xml_elements_evidenceIdentity
xml_elements_evidenceOccurrence
xml_elements_organizationalEntityOrContact
xml_elements_licensing
xml_elements_license
xml_elements_externalReference
xml_elements_mlModelCO2Measure
xml_elements_mlModelEnergyMeasure
xml_elements_mlModelEnergyProvider
xml_elements_mlModelEnergyConsumption
xml_elements_mlModelCardEnvironmentalConsiderations
xml_elements_mlModelCardEthicalConsideration
xml_elements_mlModelCardFairnessAssessment
xml_elements_mlModelCardConsiderations
xml_elements_mlInputOutputParameters
xml_elements_mlModelParametersApproach
xml_elements_mlModelParameters
xml_elements_mlPerformanceMetricConfidenceInterval
xml_elements_mlPerformanceMetric
xml_elements_mlQuantitativeAnalysis
xml_elements_mlModelCard
xml_elements_identifiableAction
xml_elements_commit
xml_elements_diff
xml_elements_source
xml_elements_issue
xml_elements_patch
xml_elements_pedigree
xml_elements_note
xml_elements_releaseNotes
xml_elements_swid
xml_elements_patentAssertion
xml_elements_component
xml_elements_service
xml_elements_annotator
xml_elements_annotation
xml_elements_assessor
xml_elements_attestationConformance
xml_elements_attestationConfidence
xml_elements_attestationMap
xml_elements_attestation
xml_elements_composition
xml_elements_claim
xml_elements_evidenceDataContents
xml_elements_evidenceData
xml_elements_declarationEvidence
xml_elements_targets
xml_elements_signatory
xml_elements_affirmation
xml_elements_declarations
xml_elements_priorityApplication
xml_elements_patent
xml_elements_patentFamily
xml_elements_standardRequirement
xml_elements_standardLevel
xml_elements_standardDefinition
xml_elements_resourceReferenceChoice
xml_elements_parameter
xml_elements_taskInput
xml_elements_taskOutput
xml_elements_taskCommand
xml_elements_taskStep
xml_elements_event
xml_elements_taskTriggerCondition
xml_elements_taskTrigger
xml_elements_volume
xml_elements_taskWorkspace
xml_elements_task
xml_elements_workflow
xml_elements_formula
xml_elements_lifecycle
xml_elements_tool
xml_elements_distributionConstraints
xml_elements_metadata
xml_elements_credits
xml_elements_proofOfConcept
xml_elements_vulnerabilityAnalysis
xml_elements_vulnerabilityRating
xml_elements_vulnerabilityReference
xml_elements_vulnerability
xml_elements_citation
xml_elements_bom
