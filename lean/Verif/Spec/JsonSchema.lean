import Verif.Model.Version
import Verif.Json.Value

/-!
# What the JSON schemas of CycloneDX declare

GENERATED by `tools/gen_jschema.py` from the schemas that the repository ships for its own tests,
`/repo/schema/bom-1.2-strict.schema.json`, `bom-1.3-strict.schema.json`, `bom-1.4.schema.json` …
`bom-1.7.schema.json` and `jsf-0.82.schemax.json` (signatures); do not edit by hand.

Every object schema is a *place*.  `Place.members p` lists the members that the schema declares for the
objects at place `p`, and what is declared for their values; `since v s` marks what the schemas before
version `v` do not declare.  The six schemas are merged into this one table; the generator checks that for
each of the six versions the table restricted to that version declares exactly the members and kinds of
values that the schema of that version declares, at every place reachable from the root.

`Conforms v s j` says that all of `j`, at any depth, is declared: every member of every object is one
that the schema of version `v` declares for objects at its place, and every value is of a kind (string,
number, integer, boolean, array, object) declared for it.  It is weaker than validity: required members, enumerations,
patterns, formats and lengths are not looked at, and where the schema offers alternatives for an object
(`oneOf`, `anyOf`, `allOf`, `if`/`then`) a member that one of them declares is declared.  Objects that a
schema leaves open (`additionalProperties`) declare the members they list.
-/

namespace Verif

/-- The places for objects.  A place is named after the definition of the schema (`#/definitions/…`) or, if
it has none, after the path that leads there. -/
inductive Place where
  | bom
  | metadata
  | component
  | service
  | externalReference
  | dependency
  | compositions
  | vulnerability
  | annotations
  | formula
  | bomDeclarations
  | bomDefinitions
  | citation
  | property
  | signature
  | metadataLifecycles
  | tool
  | tools
  | organizationalEntity
  | organizationalContact
  | licenseChoice
  | metadataDistributionConstraints
  | hash
  | patentAssertion
  | swid
  | componentPedigree
  | componentEvidence
  | releaseNotes
  | modelCard
  | componentData
  | cryptoProperties
  | serviceData
  | vulnerabilitySource
  | vulnerabilityReferences
  | rating
  | vulnerabilityProofOfConcept
  | advisory
  | vulnerabilityCredits
  | vulnerabilityAnalysis
  | vulnerabilityAffects
  | annotationsAnnotator
  | workflow
  | assessors
  | attestations
  | claims
  | evidence
  | targets
  | affirmation
  | standard
  | patentOrFamily
  | signer
  | publicKey
  | postalAddress
  | license
  | expressionDetail
  | licensing
  | asserter
  | attachment
  | commit
  | patch
  | componentIdentityEvidence
  | componentEvidenceOccurrences
  | componentEvidenceCallstack
  | copyright
  | issue
  | note
  | modelCardModelParameters
  | modelCardQuantitativeAnalysis
  | modelCardConsiderations
  | componentDataContents
  | graphicsCollection
  | dataGovernance
  | algorithmProperties
  | certificateProperties
  | relatedCryptoMaterialProperties
  | protocolProperties
  | affectedVersions
  | resourceReferenceChoice
  | task
  | trigger
  | step
  | inputType
  | outputType
  | workspace
  | attestationMap
  | evidenceData
  | affirmationSignatories
  | standardRequirements
  | standardLevels
  | priorityApplication
  | patentAssignee
  | organizationOrIndividual
  | identifiableAction
  | diff
  | componentIdentityEvidenceMethods
  | componentEvidenceCallstackFrames
  | issueSource
  | modelCardModelParametersApproach
  | modelDataset
  | inputOutputMLParameters
  | performanceMetric
  | risk
  | environmentalConsiderations
  | fairnessAssessment
  | graphic
  | dataGovernanceResponsibleParty
  | certificateState
  | certificateExtension
  | relatedCryptographicAsset
  | securedBy
  | cipherSuite
  | ikev2TransformTypes
  | event
  | condition
  | command
  | parameter
  | volume
  | conformance
  | confidence
  | evidenceDataContents
  | performanceMetricConfidenceInterval
  | energyConsumption
  | ikeV2Enc
  | ikeV2Prf
  | ikeV2Integ
  | ikeV2Ke
  | ikeV2Auth
  | energyProvider
  | energyMeasure
  | co2Measure

/-- What is declared for a value. -/
inductive Sch where
  | str
  | num
  | int
  | bool
  /-- an array of such values -/
  | list (s : Sch)
  /-- an object -/
  | place (p : Place)
  /-- either of two kinds of values -/
  | alt (s t : Sch)
  /-- declared from version `v` on -/
  | since (v : Int) (s : Sch)

/-- The declared members of the objects at a place. -/
def Place.members : Place → List (String × Sch)
  | .bom => [
      ("$schema", .str),
      ("bomFormat", .str),
      ("specVersion", .str),
      ("serialNumber", .str),
      ("version", .int),
      ("metadata", .place .metadata),
      ("components", .list (.place .component)),
      ("services", .list (.place .service)),
      ("externalReferences", .list (.place .externalReference)),
      ("dependencies", .list (.place .dependency)),
      ("compositions", .since SpecVersion1_3 (.list (.place .compositions))),
      ("vulnerabilities", .since SpecVersion1_4 (.list (.place .vulnerability))),
      ("annotations", .since SpecVersion1_5 (.list (.place .annotations))),
      ("formulation", .since SpecVersion1_5 (.list (.place .formula))),
      ("declarations", .since SpecVersion1_6 (.place .bomDeclarations)),
      ("definitions", .since SpecVersion1_6 (.place .bomDefinitions)),
      ("citations", .since SpecVersion1_7 (.list (.place .citation))),
      ("properties", .since SpecVersion1_5 (.list (.place .property))),
      ("signature", .since SpecVersion1_4 (.place .signature))]
  | .metadata => [
      ("timestamp", .str),
      ("lifecycles", .since SpecVersion1_5 (.list (.place .metadataLifecycles))),
      ("tools", .alt (.list (.place .tool)) (.since SpecVersion1_5 (.place .tools))),
      ("manufacturer", .since SpecVersion1_6 (.place .organizationalEntity)),
      ("authors", .list (.place .organizationalContact)),
      ("component", .place .component),
      ("manufacture", .place .organizationalEntity),
      ("supplier", .place .organizationalEntity),
      ("licenses", .since SpecVersion1_3 (.list (.place .licenseChoice))),
      ("properties", .since SpecVersion1_3 (.list (.place .property))),
      ("distributionConstraints", .since SpecVersion1_7 (.place .metadataDistributionConstraints))]
  | .component => [
      ("type", .str),
      ("mime-type", .str),
      ("bom-ref", .str),
      ("supplier", .place .organizationalEntity),
      ("manufacturer", .since SpecVersion1_6 (.place .organizationalEntity)),
      ("authors", .since SpecVersion1_6 (.list (.place .organizationalContact))),
      ("author", .str),
      ("publisher", .str),
      ("group", .str),
      ("name", .str),
      ("version", .str),
      ("versionRange", .since SpecVersion1_7 .str),
      ("isExternal", .since SpecVersion1_7 .bool),
      ("description", .str),
      ("scope", .str),
      ("hashes", .list (.place .hash)),
      ("licenses", .list (.place .licenseChoice)),
      ("copyright", .str),
      ("patentAssertions", .since SpecVersion1_7 (.list (.place .patentAssertion))),
      ("cpe", .str),
      ("purl", .str),
      ("omniborId", .since SpecVersion1_6 (.list .str)),
      ("swhid", .since SpecVersion1_6 (.list .str)),
      ("swid", .place .swid),
      ("modified", .bool),
      ("pedigree", .place .componentPedigree),
      ("externalReferences", .list (.place .externalReference)),
      ("components", .list (.place .component)),
      ("evidence", .since SpecVersion1_3 (.place .componentEvidence)),
      ("releaseNotes", .since SpecVersion1_4 (.place .releaseNotes)),
      ("modelCard", .since SpecVersion1_5 (.place .modelCard)),
      ("data", .since SpecVersion1_5 (.list (.place .componentData))),
      ("cryptoProperties", .since SpecVersion1_6 (.place .cryptoProperties)),
      ("properties", .since SpecVersion1_3 (.list (.place .property))),
      ("tags", .since SpecVersion1_6 (.list .str)),
      ("signature", .since SpecVersion1_4 (.place .signature))]
  | .service => [
      ("bom-ref", .str),
      ("provider", .place .organizationalEntity),
      ("group", .str),
      ("name", .str),
      ("version", .str),
      ("description", .str),
      ("endpoints", .list .str),
      ("authenticated", .bool),
      ("x-trust-boundary", .bool),
      ("trustZone", .since SpecVersion1_5 .str),
      ("data", .list (.place .serviceData)),
      ("licenses", .list (.place .licenseChoice)),
      ("patentAssertions", .since SpecVersion1_7 (.list (.place .patentAssertion))),
      ("externalReferences", .list (.place .externalReference)),
      ("services", .list (.place .service)),
      ("releaseNotes", .since SpecVersion1_4 (.place .releaseNotes)),
      ("properties", .since SpecVersion1_3 (.list (.place .property))),
      ("tags", .since SpecVersion1_6 (.list .str)),
      ("signature", .since SpecVersion1_4 (.place .signature))]
  | .externalReference => [
      ("url", .str),
      ("comment", .str),
      ("type", .str),
      ("hashes", .since SpecVersion1_3 (.list (.place .hash))),
      ("properties", .since SpecVersion1_7 (.list (.place .property)))]
  | .dependency => [
      ("ref", .str),
      ("dependsOn", .list .str),
      ("provides", .since SpecVersion1_6 (.list .str))]
  | .compositions => [
      ("bom-ref", .since SpecVersion1_5 .str),
      ("aggregate", .str),
      ("assemblies", .list .str),
      ("dependencies", .list .str),
      ("vulnerabilities", .since SpecVersion1_5 (.list .str)),
      ("signature", .since SpecVersion1_4 (.place .signature))]
  | .vulnerability => [
      ("bom-ref", .str),
      ("id", .str),
      ("source", .place .vulnerabilitySource),
      ("references", .list (.place .vulnerabilityReferences)),
      ("ratings", .list (.place .rating)),
      ("cwes", .list .int),
      ("description", .str),
      ("detail", .str),
      ("recommendation", .str),
      ("workaround", .since SpecVersion1_5 .str),
      ("proofOfConcept", .since SpecVersion1_5 (.place .vulnerabilityProofOfConcept)),
      ("advisories", .list (.place .advisory)),
      ("created", .str),
      ("published", .str),
      ("updated", .str),
      ("rejected", .since SpecVersion1_5 .str),
      ("credits", .place .vulnerabilityCredits),
      ("tools", .alt (.list (.place .tool)) (.since SpecVersion1_5 (.place .tools))),
      ("analysis", .place .vulnerabilityAnalysis),
      ("affects", .list (.place .vulnerabilityAffects)),
      ("properties", .list (.place .property))]
  | .annotations => [
      ("bom-ref", .str),
      ("subjects", .list .str),
      ("annotator", .place .annotationsAnnotator),
      ("timestamp", .str),
      ("text", .str),
      ("signature", .place .signature)]
  | .formula => [
      ("bom-ref", .str),
      ("components", .list (.place .component)),
      ("services", .list (.place .service)),
      ("workflows", .list (.place .workflow)),
      ("properties", .list (.place .property))]
  | .bomDeclarations => [
      ("assessors", .list (.place .assessors)),
      ("attestations", .list (.place .attestations)),
      ("claims", .list (.place .claims)),
      ("evidence", .list (.place .evidence)),
      ("targets", .place .targets),
      ("affirmation", .place .affirmation),
      ("signature", .place .signature)]
  | .bomDefinitions => [
      ("standards", .list (.place .standard)),
      ("patents", .since SpecVersion1_7 (.list (.place .patentOrFamily)))]
  | .citation => [
      ("bom-ref", .str),
      ("pointers", .list .str),
      ("expressions", .list .str),
      ("timestamp", .str),
      ("attributedTo", .str),
      ("process", .str),
      ("note", .str),
      ("signature", .place .signature)]
  | .property => [
      ("name", .str),
      ("value", .str)]
  | .signature => [
      ("signers", .list (.place .signer)),
      ("chain", .list (.place .signer)),
      ("algorithm", .str),
      ("keyId", .str),
      ("publicKey", .place .publicKey),
      ("certificatePath", .list .str),
      ("excludes", .list .str),
      ("value", .str)]
  | .metadataLifecycles => [
      ("phase", .str),
      ("name", .str),
      ("description", .str)]
  | .tool => [
      ("vendor", .str),
      ("name", .str),
      ("version", .str),
      ("hashes", .list (.place .hash)),
      ("externalReferences", .since SpecVersion1_4 (.list (.place .externalReference)))]
  | .tools => [
      ("components", .list (.place .component)),
      ("services", .list (.place .service))]
  | .organizationalEntity => [
      ("bom-ref", .since SpecVersion1_5 .str),
      ("name", .str),
      ("address", .since SpecVersion1_6 (.place .postalAddress)),
      ("url", .list .str),
      ("contact", .list (.place .organizationalContact))]
  | .organizationalContact => [
      ("bom-ref", .since SpecVersion1_5 .str),
      ("name", .str),
      ("email", .str),
      ("phone", .str)]
  | .licenseChoice => [
      ("license", .place .license),
      ("expression", .str),
      ("expressionDetails", .since SpecVersion1_7 (.list (.place .expressionDetail))),
      ("acknowledgement", .since SpecVersion1_6 .str),
      ("bom-ref", .since SpecVersion1_6 .str),
      ("licensing", .since SpecVersion1_7 (.place .licensing)),
      ("properties", .since SpecVersion1_7 (.list (.place .property)))]
  | .metadataDistributionConstraints => [
      ("tlp", .str)]
  | .hash => [
      ("alg", .str),
      ("content", .str)]
  | .patentAssertion => [
      ("bom-ref", .str),
      ("assertionType", .str),
      ("patentRefs", .list .str),
      ("asserter", .alt .str (.place .asserter)),
      ("notes", .str)]
  | .swid => [
      ("tagId", .str),
      ("name", .str),
      ("version", .str),
      ("tagVersion", .int),
      ("patch", .bool),
      ("text", .place .attachment),
      ("url", .str)]
  | .componentPedigree => [
      ("ancestors", .list (.place .component)),
      ("descendants", .list (.place .component)),
      ("variants", .list (.place .component)),
      ("commits", .list (.place .commit)),
      ("patches", .list (.place .patch)),
      ("notes", .str)]
  | .componentEvidence => [
      ("identity", .since SpecVersion1_5 (.alt (.since SpecVersion1_6 (.list (.place .componentIdentityEvidence))) (.place .componentIdentityEvidence))),
      ("occurrences", .since SpecVersion1_5 (.list (.place .componentEvidenceOccurrences))),
      ("callstack", .since SpecVersion1_5 (.place .componentEvidenceCallstack)),
      ("licenses", .list (.place .licenseChoice)),
      ("copyright", .list (.place .copyright))]
  | .releaseNotes => [
      ("type", .str),
      ("title", .str),
      ("featuredImage", .str),
      ("socialImage", .str),
      ("description", .str),
      ("timestamp", .str),
      ("aliases", .list .str),
      ("tags", .list .str),
      ("resolves", .list (.place .issue)),
      ("notes", .list (.place .note)),
      ("properties", .list (.place .property))]
  | .modelCard => [
      ("bom-ref", .str),
      ("modelParameters", .place .modelCardModelParameters),
      ("quantitativeAnalysis", .place .modelCardQuantitativeAnalysis),
      ("considerations", .place .modelCardConsiderations),
      ("properties", .list (.place .property))]
  | .componentData => [
      ("bom-ref", .str),
      ("type", .str),
      ("name", .str),
      ("contents", .place .componentDataContents),
      ("classification", .str),
      ("sensitiveData", .list .str),
      ("graphics", .place .graphicsCollection),
      ("description", .str),
      ("governance", .place .dataGovernance)]
  | .cryptoProperties => [
      ("assetType", .str),
      ("algorithmProperties", .place .algorithmProperties),
      ("certificateProperties", .place .certificateProperties),
      ("relatedCryptoMaterialProperties", .place .relatedCryptoMaterialProperties),
      ("protocolProperties", .place .protocolProperties),
      ("oid", .str)]
  | .serviceData => [
      ("flow", .str),
      ("classification", .str),
      ("name", .since SpecVersion1_5 .str),
      ("description", .since SpecVersion1_5 .str),
      ("governance", .since SpecVersion1_5 (.place .dataGovernance)),
      ("source", .since SpecVersion1_5 (.list .str)),
      ("destination", .since SpecVersion1_5 (.list .str))]
  | .vulnerabilitySource => [
      ("url", .str),
      ("name", .str)]
  | .vulnerabilityReferences => [
      ("id", .str),
      ("source", .place .vulnerabilitySource)]
  | .rating => [
      ("source", .place .vulnerabilitySource),
      ("score", .num),
      ("severity", .str),
      ("method", .str),
      ("vector", .str),
      ("justification", .str)]
  | .vulnerabilityProofOfConcept => [
      ("reproductionSteps", .str),
      ("environment", .str),
      ("supportingMaterial", .list (.place .attachment))]
  | .advisory => [
      ("title", .str),
      ("url", .str)]
  | .vulnerabilityCredits => [
      ("organizations", .list (.place .organizationalEntity)),
      ("individuals", .list (.place .organizationalContact))]
  | .vulnerabilityAnalysis => [
      ("state", .str),
      ("justification", .str),
      ("response", .list .str),
      ("detail", .str),
      ("firstIssued", .since SpecVersion1_5 .str),
      ("lastUpdated", .since SpecVersion1_5 .str)]
  | .vulnerabilityAffects => [
      ("ref", .str),
      ("versions", .list (.place .affectedVersions))]
  | .annotationsAnnotator => [
      ("organization", .place .organizationalEntity),
      ("individual", .place .organizationalContact),
      ("component", .place .component),
      ("service", .place .service)]
  | .workflow => [
      ("bom-ref", .str),
      ("uid", .str),
      ("name", .str),
      ("description", .str),
      ("resourceReferences", .list (.place .resourceReferenceChoice)),
      ("tasks", .list (.place .task)),
      ("taskDependencies", .list (.place .dependency)),
      ("taskTypes", .list .str),
      ("trigger", .place .trigger),
      ("steps", .list (.place .step)),
      ("inputs", .list (.place .inputType)),
      ("outputs", .list (.place .outputType)),
      ("timeStart", .str),
      ("timeEnd", .str),
      ("workspaces", .list (.place .workspace)),
      ("runtimeTopology", .list (.place .dependency)),
      ("properties", .list (.place .property))]
  | .assessors => [
      ("bom-ref", .str),
      ("thirdParty", .bool),
      ("organization", .place .organizationalEntity)]
  | .attestations => [
      ("summary", .str),
      ("assessor", .str),
      ("map", .list (.place .attestationMap)),
      ("signature", .place .signature)]
  | .claims => [
      ("bom-ref", .str),
      ("target", .str),
      ("predicate", .str),
      ("mitigationStrategies", .list .str),
      ("reasoning", .str),
      ("evidence", .list .str),
      ("counterEvidence", .list .str),
      ("externalReferences", .list (.place .externalReference)),
      ("signature", .place .signature)]
  | .evidence => [
      ("bom-ref", .str),
      ("propertyName", .str),
      ("description", .str),
      ("data", .list (.place .evidenceData)),
      ("created", .str),
      ("expires", .str),
      ("author", .place .organizationalContact),
      ("reviewer", .place .organizationalContact),
      ("signature", .place .signature)]
  | .targets => [
      ("organizations", .list (.place .organizationalEntity)),
      ("components", .list (.place .component)),
      ("services", .list (.place .service))]
  | .affirmation => [
      ("statement", .str),
      ("signatories", .list (.place .affirmationSignatories)),
      ("signature", .place .signature)]
  | .standard => [
      ("bom-ref", .str),
      ("name", .str),
      ("version", .str),
      ("description", .str),
      ("owner", .str),
      ("requirements", .list (.place .standardRequirements)),
      ("levels", .list (.place .standardLevels)),
      ("externalReferences", .list (.place .externalReference)),
      ("signature", .place .signature)]
  | .patentOrFamily => [
      ("bom-ref", .str),
      ("patentNumber", .str),
      ("applicationNumber", .str),
      ("jurisdiction", .str),
      ("priorityApplication", .place .priorityApplication),
      ("publicationNumber", .str),
      ("title", .str),
      ("abstract", .str),
      ("filingDate", .str),
      ("grantDate", .str),
      ("patentExpirationDate", .str),
      ("patentLegalStatus", .str),
      ("patentAssignee", .list (.place .patentAssignee)),
      ("externalReferences", .list (.place .externalReference)),
      ("familyId", .str),
      ("members", .list .str)]
  | .signer => [
      ("algorithm", .str),
      ("keyId", .str),
      ("publicKey", .place .publicKey),
      ("certificatePath", .list .str),
      ("excludes", .list .str),
      ("value", .str)]
  | .publicKey => [
      ("kty", .str),
      ("crv", .str),
      ("x", .str),
      ("y", .str),
      ("n", .str),
      ("e", .str)]
  | .postalAddress => [
      ("bom-ref", .str),
      ("country", .str),
      ("region", .str),
      ("locality", .str),
      ("postOfficeBoxNumber", .str),
      ("postalCode", .str),
      ("streetAddress", .str)]
  | .license => [
      ("bom-ref", .since SpecVersion1_5 .str),
      ("id", .str),
      ("name", .str),
      ("acknowledgement", .since SpecVersion1_6 .str),
      ("text", .place .attachment),
      ("url", .str),
      ("licensing", .since SpecVersion1_5 (.place .licensing)),
      ("properties", .since SpecVersion1_5 (.list (.place .property)))]
  | .expressionDetail => [
      ("licenseIdentifier", .str),
      ("bom-ref", .str),
      ("text", .place .attachment),
      ("url", .str)]
  | .licensing => [
      ("altIds", .list .str),
      ("licensor", .place .organizationOrIndividual),
      ("licensee", .place .organizationOrIndividual),
      ("purchaser", .place .organizationOrIndividual),
      ("purchaseOrder", .str),
      ("licenseTypes", .list .str),
      ("lastRenewal", .str),
      ("expiration", .str)]
  | .asserter => [
      ("bom-ref", .str),
      ("name", .str),
      ("address", .place .postalAddress),
      ("url", .list .str),
      ("contact", .list (.place .organizationalContact)),
      ("email", .str),
      ("phone", .str)]
  | .attachment => [
      ("contentType", .str),
      ("encoding", .str),
      ("content", .str)]
  | .commit => [
      ("uid", .str),
      ("url", .str),
      ("author", .place .identifiableAction),
      ("committer", .place .identifiableAction),
      ("message", .str)]
  | .patch => [
      ("type", .str),
      ("diff", .place .diff),
      ("resolves", .list (.place .issue))]
  | .componentIdentityEvidence => [
      ("field", .str),
      ("confidence", .num),
      ("concludedValue", .since SpecVersion1_6 .str),
      ("methods", .list (.place .componentIdentityEvidenceMethods)),
      ("tools", .list .str)]
  | .componentEvidenceOccurrences => [
      ("bom-ref", .str),
      ("location", .str),
      ("line", .since SpecVersion1_6 .int),
      ("offset", .since SpecVersion1_6 .int),
      ("symbol", .since SpecVersion1_6 .str),
      ("additionalContext", .since SpecVersion1_6 .str)]
  | .componentEvidenceCallstack => [
      ("frames", .list (.place .componentEvidenceCallstackFrames))]
  | .copyright => [
      ("text", .str)]
  | .issue => [
      ("type", .str),
      ("id", .str),
      ("name", .str),
      ("description", .str),
      ("source", .place .issueSource),
      ("references", .list .str)]
  | .note => [
      ("locale", .str),
      ("text", .place .attachment)]
  | .modelCardModelParameters => [
      ("approach", .place .modelCardModelParametersApproach),
      ("task", .str),
      ("architectureFamily", .str),
      ("modelArchitecture", .str),
      ("datasets", .list (.place .modelDataset)),
      ("inputs", .list (.place .inputOutputMLParameters)),
      ("outputs", .list (.place .inputOutputMLParameters))]
  | .modelCardQuantitativeAnalysis => [
      ("performanceMetrics", .list (.place .performanceMetric)),
      ("graphics", .place .graphicsCollection)]
  | .modelCardConsiderations => [
      ("users", .list .str),
      ("useCases", .list .str),
      ("technicalLimitations", .list .str),
      ("performanceTradeoffs", .list .str),
      ("ethicalConsiderations", .list (.place .risk)),
      ("environmentalConsiderations", .since SpecVersion1_6 (.place .environmentalConsiderations)),
      ("fairnessAssessments", .list (.place .fairnessAssessment))]
  | .componentDataContents => [
      ("attachment", .place .attachment),
      ("url", .str),
      ("properties", .list (.place .property))]
  | .graphicsCollection => [
      ("description", .str),
      ("collection", .list (.place .graphic))]
  | .dataGovernance => [
      ("custodians", .list (.place .dataGovernanceResponsibleParty)),
      ("stewards", .list (.place .dataGovernanceResponsibleParty)),
      ("owners", .list (.place .dataGovernanceResponsibleParty))]
  | .algorithmProperties => [
      ("primitive", .str),
      ("algorithmFamily", .since SpecVersion1_7 .str),
      ("parameterSetIdentifier", .str),
      ("curve", .str),
      ("ellipticCurve", .since SpecVersion1_7 .str),
      ("executionEnvironment", .str),
      ("implementationPlatform", .str),
      ("certificationLevel", .list .str),
      ("mode", .str),
      ("padding", .str),
      ("cryptoFunctions", .list .str),
      ("classicalSecurityLevel", .int),
      ("nistQuantumSecurityLevel", .int)]
  | .certificateProperties => [
      ("serialNumber", .since SpecVersion1_7 .str),
      ("subjectName", .str),
      ("issuerName", .str),
      ("notValidBefore", .str),
      ("notValidAfter", .str),
      ("signatureAlgorithmRef", .str),
      ("subjectPublicKeyRef", .str),
      ("certificateFormat", .str),
      ("certificateExtension", .str),
      ("certificateFileExtension", .since SpecVersion1_7 .str),
      ("fingerprint", .since SpecVersion1_7 (.place .hash)),
      ("certificateState", .since SpecVersion1_7 (.list (.place .certificateState))),
      ("creationDate", .since SpecVersion1_7 .str),
      ("activationDate", .since SpecVersion1_7 .str),
      ("deactivationDate", .since SpecVersion1_7 .str),
      ("revocationDate", .since SpecVersion1_7 .str),
      ("destructionDate", .since SpecVersion1_7 .str),
      ("certificateExtensions", .since SpecVersion1_7 (.list (.place .certificateExtension))),
      ("relatedCryptographicAssets", .since SpecVersion1_7 (.list (.place .relatedCryptographicAsset)))]
  | .relatedCryptoMaterialProperties => [
      ("type", .str),
      ("id", .str),
      ("state", .str),
      ("algorithmRef", .str),
      ("creationDate", .str),
      ("activationDate", .str),
      ("updateDate", .str),
      ("expirationDate", .str),
      ("value", .str),
      ("size", .int),
      ("format", .str),
      ("securedBy", .place .securedBy),
      ("fingerprint", .since SpecVersion1_7 (.place .hash)),
      ("relatedCryptographicAssets", .since SpecVersion1_7 (.list (.place .relatedCryptographicAsset)))]
  | .protocolProperties => [
      ("type", .str),
      ("version", .str),
      ("cipherSuites", .list (.place .cipherSuite)),
      ("ikev2TransformTypes", .place .ikev2TransformTypes),
      ("cryptoRefArray", .list .str),
      ("relatedCryptographicAssets", .since SpecVersion1_7 (.list (.place .relatedCryptographicAsset)))]
  | .affectedVersions => [
      ("version", .str),
      ("range", .str),
      ("status", .str)]
  | .resourceReferenceChoice => [
      ("ref", .str),
      ("externalReference", .place .externalReference)]
  | .task => [
      ("bom-ref", .str),
      ("uid", .str),
      ("name", .str),
      ("description", .str),
      ("resourceReferences", .list (.place .resourceReferenceChoice)),
      ("taskTypes", .list .str),
      ("trigger", .place .trigger),
      ("steps", .list (.place .step)),
      ("inputs", .list (.place .inputType)),
      ("outputs", .list (.place .outputType)),
      ("timeStart", .str),
      ("timeEnd", .str),
      ("workspaces", .list (.place .workspace)),
      ("runtimeTopology", .list (.place .dependency)),
      ("properties", .list (.place .property))]
  | .trigger => [
      ("bom-ref", .str),
      ("uid", .str),
      ("name", .str),
      ("description", .str),
      ("resourceReferences", .list (.place .resourceReferenceChoice)),
      ("type", .str),
      ("event", .place .event),
      ("conditions", .list (.place .condition)),
      ("timeActivated", .str),
      ("inputs", .list (.place .inputType)),
      ("outputs", .list (.place .outputType)),
      ("properties", .list (.place .property))]
  | .step => [
      ("name", .str),
      ("description", .str),
      ("commands", .list (.place .command)),
      ("properties", .list (.place .property))]
  | .inputType => [
      ("source", .place .resourceReferenceChoice),
      ("target", .place .resourceReferenceChoice),
      ("resource", .place .resourceReferenceChoice),
      ("parameters", .list (.place .parameter)),
      ("environmentVars", .list (.alt .str (.place .property))),
      ("data", .place .attachment),
      ("properties", .list (.place .property))]
  | .outputType => [
      ("type", .str),
      ("source", .place .resourceReferenceChoice),
      ("target", .place .resourceReferenceChoice),
      ("resource", .place .resourceReferenceChoice),
      ("data", .place .attachment),
      ("environmentVars", .list (.alt .str (.place .property))),
      ("properties", .list (.place .property))]
  | .workspace => [
      ("bom-ref", .str),
      ("uid", .str),
      ("name", .str),
      ("aliases", .list .str),
      ("description", .str),
      ("resourceReferences", .list (.place .resourceReferenceChoice)),
      ("accessMode", .str),
      ("mountPath", .str),
      ("managedDataType", .str),
      ("volumeRequest", .str),
      ("volume", .place .volume),
      ("properties", .list (.place .property))]
  | .attestationMap => [
      ("requirement", .str),
      ("claims", .list .str),
      ("counterClaims", .list .str),
      ("conformance", .place .conformance),
      ("confidence", .place .confidence)]
  | .evidenceData => [
      ("name", .str),
      ("contents", .place .evidenceDataContents),
      ("classification", .str),
      ("sensitiveData", .list .str),
      ("governance", .place .dataGovernance)]
  | .affirmationSignatories => [
      ("name", .str),
      ("role", .str),
      ("signature", .place .signature),
      ("organization", .place .organizationalEntity),
      ("externalReference", .place .externalReference)]
  | .standardRequirements => [
      ("bom-ref", .str),
      ("identifier", .str),
      ("title", .str),
      ("text", .str),
      ("descriptions", .list .str),
      ("openCre", .list .str),
      ("parent", .str),
      ("properties", .list (.place .property)),
      ("externalReferences", .list (.place .externalReference))]
  | .standardLevels => [
      ("bom-ref", .str),
      ("identifier", .str),
      ("title", .str),
      ("description", .str),
      ("requirements", .list .str)]
  | .priorityApplication => [
      ("applicationNumber", .str),
      ("jurisdiction", .str),
      ("filingDate", .str)]
  | .patentAssignee => [
      ("bom-ref", .str),
      ("name", .str),
      ("email", .str),
      ("phone", .str),
      ("address", .place .postalAddress),
      ("url", .list .str),
      ("contact", .list (.place .organizationalContact))]
  | .organizationOrIndividual => [
      ("organization", .place .organizationalEntity),
      ("individual", .place .organizationalContact)]
  | .identifiableAction => [
      ("timestamp", .str),
      ("name", .str),
      ("email", .str)]
  | .diff => [
      ("text", .place .attachment),
      ("url", .str)]
  | .componentIdentityEvidenceMethods => [
      ("technique", .str),
      ("confidence", .num),
      ("value", .str)]
  | .componentEvidenceCallstackFrames => [
      ("package", .str),
      ("module", .str),
      ("function", .str),
      ("parameters", .list .str),
      ("line", .int),
      ("column", .int),
      ("fullFilename", .str)]
  | .issueSource => [
      ("name", .str),
      ("url", .str)]
  | .modelCardModelParametersApproach => [
      ("type", .str)]
  | .modelDataset => [
      ("bom-ref", .str),
      ("type", .str),
      ("name", .str),
      ("contents", .place .componentDataContents),
      ("classification", .str),
      ("sensitiveData", .list .str),
      ("graphics", .place .graphicsCollection),
      ("description", .str),
      ("governance", .place .dataGovernance),
      ("ref", .str)]
  | .inputOutputMLParameters => [
      ("format", .str)]
  | .performanceMetric => [
      ("type", .str),
      ("value", .str),
      ("slice", .str),
      ("confidenceInterval", .place .performanceMetricConfidenceInterval)]
  | .risk => [
      ("name", .str),
      ("mitigationStrategy", .str)]
  | .environmentalConsiderations => [
      ("energyConsumptions", .list (.place .energyConsumption)),
      ("properties", .list (.place .property))]
  | .fairnessAssessment => [
      ("groupAtRisk", .str),
      ("benefits", .str),
      ("harms", .str),
      ("mitigationStrategy", .str)]
  | .graphic => [
      ("name", .str),
      ("image", .place .attachment)]
  | .dataGovernanceResponsibleParty => [
      ("organization", .place .organizationalEntity),
      ("contact", .place .organizationalContact)]
  | .certificateState => [
      ("state", .str),
      ("reason", .str),
      ("name", .str),
      ("description", .str)]
  | .certificateExtension => [
      ("commonExtensionName", .str),
      ("commonExtensionValue", .str),
      ("customExtensionName", .str),
      ("customExtensionValue", .str)]
  | .relatedCryptographicAsset => [
      ("type", .str),
      ("ref", .str)]
  | .securedBy => [
      ("mechanism", .str),
      ("algorithmRef", .str)]
  | .cipherSuite => [
      ("name", .str),
      ("algorithms", .list .str),
      ("identifiers", .list .str),
      ("tlsGroups", .since SpecVersion1_7 (.list .str)),
      ("tlsSignatureSchemes", .since SpecVersion1_7 (.list .str))]
  | .ikev2TransformTypes => [
      ("encr", .list (.alt .str (.since SpecVersion1_7 (.place .ikeV2Enc)))),
      ("prf", .list (.alt .str (.since SpecVersion1_7 (.place .ikeV2Prf)))),
      ("integ", .list (.alt .str (.since SpecVersion1_7 (.place .ikeV2Integ)))),
      ("ke", .list (.alt .str (.since SpecVersion1_7 (.place .ikeV2Ke)))),
      ("esn", .bool),
      ("auth", .list (.alt .str (.since SpecVersion1_7 (.place .ikeV2Auth))))]
  | .event => [
      ("uid", .str),
      ("description", .str),
      ("timeReceived", .str),
      ("data", .place .attachment),
      ("source", .place .resourceReferenceChoice),
      ("target", .place .resourceReferenceChoice),
      ("properties", .list (.place .property))]
  | .condition => [
      ("description", .str),
      ("expression", .str),
      ("properties", .list (.place .property))]
  | .command => [
      ("executed", .str),
      ("properties", .list (.place .property))]
  | .parameter => [
      ("name", .str),
      ("value", .str),
      ("dataType", .str)]
  | .volume => [
      ("uid", .str),
      ("name", .str),
      ("mode", .str),
      ("path", .str),
      ("sizeAllocated", .str),
      ("persistent", .bool),
      ("remote", .bool),
      ("properties", .list (.place .property))]
  | .conformance => [
      ("score", .num),
      ("rationale", .str),
      ("mitigationStrategies", .list .str)]
  | .confidence => [
      ("score", .num),
      ("rationale", .str)]
  | .evidenceDataContents => [
      ("attachment", .place .attachment),
      ("url", .str)]
  | .performanceMetricConfidenceInterval => [
      ("lowerBound", .str),
      ("upperBound", .str)]
  | .energyConsumption => [
      ("activity", .str),
      ("energyProviders", .list (.place .energyProvider)),
      ("activityEnergyCost", .place .energyMeasure),
      ("co2CostEquivalent", .place .co2Measure),
      ("co2CostOffset", .place .co2Measure),
      ("properties", .list (.place .property))]
  | .ikeV2Enc => [
      ("name", .str),
      ("keyLength", .int),
      ("algorithm", .str)]
  | .ikeV2Prf => [
      ("name", .str),
      ("algorithm", .str)]
  | .ikeV2Integ => [
      ("name", .str),
      ("algorithm", .str)]
  | .ikeV2Ke => [
      ("group", .int),
      ("algorithm", .str)]
  | .ikeV2Auth => [
      ("name", .str),
      ("algorithm", .str)]
  | .energyProvider => [
      ("bom-ref", .str),
      ("description", .str),
      ("organization", .place .organizationalEntity),
      ("energySource", .str),
      ("energyProvided", .place .energyMeasure),
      ("externalReferences", .list (.place .externalReference))]
  | .energyMeasure => [
      ("value", .num),
      ("unit", .str)]
  | .co2Measure => [
      ("value", .num),
      ("unit", .str)]

/-- At version `v` the schema declares everything in the value, where `s` is declared for the value itself.
(`σ` gives for every member of the object what is declared for its value.) -/
inductive Conforms (v : Int) : Sch → Json → Prop
  | str (t : String) : Conforms v .str (.str t)
  | num (l : NumLit) : Conforms v .num (.num l)
  | int (i : Int) : Conforms v .int (.num (.ofInt i))
  | bool (b : Bool) : Conforms v .bool (.bool b)
  | list {s : Sch} {js : List Json} (h : ∀ j ∈ js, Conforms v s j) : Conforms v (.list s) (.arr js)
  | place {p : Place} {ms : List (String × Json)} (σ : String → Sch)
      (declared : ∀ m ∈ ms, p.members.lookup m.1 = some (σ m.1))
      (h : ∀ m ∈ ms, Conforms v (σ m.1) m.2) : Conforms v (.place p) (.obj ms)
  | left {s t : Sch} {j : Json} (h : Conforms v s j) : Conforms v (.alt s t) j
  | right {s t : Sch} {j : Json} (h : Conforms v t j) : Conforms v (.alt s t) j
  | since {n : Int} {s : Sch} {j : Json} (hn : n ≤ v) (h : Conforms v s j) : Conforms v (.since n s) j

/-- A document uses only what the schema of version `v` declares. -/
def Json.Declared (v : Int) (j : Json) : Prop := Conforms v (.place .bom) j

end Verif
