json_members_advisory
json_members_affectedVersions
json_members_affects
json_members_attachedText
json_members_property
json_members_componentDataContents
json_members_componentDataGraphic
json_members_componentDataGraphics
json_members_organizationalContact
json_members_postalAddress
json_members_organizationalEntity
json_members_componentDataGovernanceResponsibleParty
json_members_dataGovernance
json_members_componentData
json_members_hash
json_members_relatedCryptographicAsset
json_members_predefinedCertificateState
json_members_customCertificateState
json_members_commonCertificateExtension
json_members_customCertificateExtension
json_members_certificateProperties
json_members_cryptoAlgorithmProperties
json_members_cipherSuite
json_members_ikev2Auth
json_members_ikev2Enc
json_members_ikev2Integ
json_members_ikev2Ke
json_members_ikev2Prf
json_members_ikev2TransformTypes
json_members_cryptoProtocolProperties
json_members_securedBy
json_members_relatedCryptoMaterialProperties
json_members_cryptoProperties
json_members_callstackFrame
json_members_callstack
json_members_copyright
json_members_evidenceIdentityMethod
json_members_evidenceIdentity
json_members_evidenceOccurrence
json_members_organizationalEntityOrContact
json_members_licensing
json_members_license
json_members_licenseExpressionDetail
json_members_licenseChoice
json_members_evidence
json_members_externalReference
json_members_jsfPublicKey
json_members_jsfSigner
json_members_jsfSignature
json_members_mlModelCO2Measure
json_members_mlModelEnergyMeasure
json_members_mlModelEnergyProvider
json_members_mlModelEnergyConsumption
json_members_mlModelCardEnvironmentalConsiderations
json_members_mlModelCardEthicalConsideration
json_members_mlModelCardFairnessAssessment
json_members_mlModelCardConsiderations
json_members_mlInputOutputParameters
json_members_mlModelParametersApproach
json_members_mlModelParameters
json_members_mlPerformanceMetricConfidenceInterval
json_members_mlPerformanceMetric
json_members_mlQuantitativeAnalysis
json_members_mlModelCard
json_members_identifiableAction
json_members_commit
json_members_diff
json_members_source
json_members_issue
json_members_patch
json_members_pedigree
json_members_note
json_members_releaseNotes
json_members_swid
json_members_patentAssertion
json_members_component
json_members_dataClassification
json_members_service
json_members_annotator
json_members_annotation
json_members_assessor
json_members_attestationConformance
json_members_attestationConfidence
json_members_attestationMap
json_members_attestation
json_members_composition
json_members_claim
json_members_evidenceDataContents
json_members_evidenceData
json_members_declarationEvidence
json_members_targets
json_members_signatory
json_members_affirmation
json_members_declarations
json_members_priorityApplication
json_members_patent
json_members_patentFamily
json_members_standardRequirement
json_members_standardLevel
json_members_standardDefinition
json_members_definitions
json_members_dependency
json_members_resourceReferenceChoice
json_members_parameter
json_members_taskInput
json_members_taskOutput
json_members_taskCommand
json_members_taskStep
json_members_event
json_members_taskTriggerCondition
json_members_taskTrigger
json_members_volume
json_members_taskWorkspace
json_members_task
json_members_workflow
json_members_formula
json_members_lifecycle
json_members_tool
json_members_distributionConstraints
json_members_metadata
json_members_credits
json_members_proofOfConcept
json_members_vulnerabilityAnalysis
json_members_vulnerabilityRating
json_members_vulnerabilityReference
json_members_vulnerability
json_members_citation
json_members_bom
