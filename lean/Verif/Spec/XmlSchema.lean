import Verif.Model.Version
import Verif.Xml.Value

/-!
# What the XML schemas of CycloneDX declare

GENERATED by `tools/gen_xschema.py` from the schemas that the repository ships for its own tests,
`/repo/schema/bom-1.0.xsd` … `bom-1.7.xsd`; do not edit by hand.

Every complex type is a *place*.  `XPlace.attrs p` lists the attributes that the schema declares for the elements
at place `p`, `XPlace.content p` the elements that may be in them, in which order and how often, and
`XPlace.mixed p` whether text may be in them.  The eight schemas are merged into this one table; the generator
checks that for each of the eight versions the table restricted to that version is the schema of that version, at
every place reachable from the root.

`XValid v p x` says that the element `x` and everything in it, at any depth, is as the schema of version `v`
declares it for place `p`.  It is weaker than validity in that simple types are not looked at (enumerations,
patterns, dates, numbers), nor are keys (`xs:unique`).  Wildcards (`xs:any`, `xs:anyAttribute`) are left out:
only what is listed is declared.
-/

namespace Verif

/-- The places for elements.  A place is named after the complex type of the schema or, if it has none, after the
path that leads there; `text` is the place of all simple types. -/
inductive XPlace where
  | text
  | bom
  | metadata
  | components
  | services
  | externalReferences
  | dependencies
  | compositions
  | properties
  | vulnerabilities
  | annotations
  | formulation
  | declarations
  | definitions
  | citations
  | lifecycles
  | tools
  | authors
  | component
  | organizationalEntity
  | licenseChoice
  | distributionConstraints
  | service
  | externalReference
  | dependency
  | composition
  | property
  | vulnerability
  | annotation
  | formula
  | assessors
  | attestations
  | claims
  | evidence
  | targets
  | affirmation
  | standards
  | definitionsTypePatents
  | citation
  | lifecyclesLifecycle
  | tool
  | organizationalContact
  | swid
  | pedigree
  | componentEvidence
  | releaseNotes
  | modelCard
  | componentData
  | cryptoProperties
  | tags
  | postalAddress
  | license
  | licenseExpression
  | licenseExpressionDetailed
  | serviceEndpoints
  | serviceData
  | servicePatentAssertions
  | assemblies
  | compositionDependencies
  | compositionVulnerabilities
  | vulnerabilitySource
  | references
  | ratings
  | cwes
  | proofOfConcept
  | advisories
  | credits
  | analysis
  | affects
  | annotationTypeSubjects
  | annotatorChoice
  | workflows
  | assessor
  | attestation
  | claim
  | declarationsEvidenceEvidence
  | targetsOrganizations
  | signatories
  | standard
  | patent
  | patentFamily
  | citationTypePointers
  | citationTypeExpressions
  | toolTypeHashes
  | hash
  | patentAssertion
  | attachedText
  | commits
  | patches
  | identity
  | occurrences
  | callstack
  | copyrights
  | notes
  | modelParameters
  | quantitativeAnalysis
  | considerations
  | contents
  | graphicsCollection
  | dataGovernance
  | algorithmProperties
  | certificateProperties
  | relatedCryptoMaterialProperties
  | protocolProperties
  | licensing
  | licenseExpressionDetailedTypeDetails
  | dataClassification
  | dataflow
  | bomReference
  | referencesReference
  | rating
  | proofOfConceptSupportingMaterial
  | advisory
  | creditsIndividuals
  | analysisResponses
  | target
  | workflow
  | attestationMap
  | claimMitigationStrategies
  | data
  | signatory
  | standardRequirements
  | standardLevels
  | priorityApplication
  | patentFamilyTypeMembers
  | patentRefs
  | asserter
  | commit
  | patch
  | methods
  | componentEvidenceIdentityTools
  | occurrence
  | frames
  | issue
  | notesNote
  | approach
  | datasets
  | inputs
  | outputs
  | performanceMetrics
  | users
  | useCases
  | technicalLimitations
  | performanceTradeoffs
  | ethicalConsiderations
  | environmentalConsiderations
  | fairnessAssessments
  | collection
  | dataGovernanceCustodians
  | dataGovernanceStewards
  | dataGovernanceOwners
  | algorithmPropertiesCryptoFunctions
  | certificateState
  | certificateExtensions
  | relatedCryptographicAssets
  | securedBy
  | cipherSuites
  | ikev2TransformTypes
  | altIds
  | licensee
  | licenseTypes
  | targetVersions
  | resourceReferences
  | tasks
  | trigger
  | workspaces
  | declarationsAttestationsAttestationMapClaims
  | counterClaims
  | conformance
  | confidence
  | dataContents
  | requirement
  | level
  | identifiableAction
  | diff
  | patchTypeResolves
  | methodsMethod
  | framesFrame
  | issueTypeSource
  | issueTypeReferences
  | modelCardModelParametersInputsInput
  | performanceMetric
  | ethicalConsideration
  | energyConsumptions
  | fairnessAssessment
  | graphic
  | certificateExtension
  | relatedCryptographicAsset
  | cipherSuite
  | encr
  | prf
  | ke
  | targetVersionsVersion
  | resourceReference
  | task
  | event
  | conditions
  | step
  | input
  | output
  | workspace
  | requirementDescriptions
  | levelRequirements
  | framesFrameParameters
  | performanceMetricConfidenceInterval
  | energyConsumption
  | cipherSuiteAlgorithms
  | cipherSuiteIdentifiers
  | cipherSuiteTlsGroups
  | cipherSuiteTlsSignatureSchemes
  | taskTypeTaskTypes
  | taskTypeSteps
  | taskTypeInputs
  | taskTypeOutputs
  | conditionsCondition
  | commands
  | parameters
  | inputTypeEnvironmentVars
  | workspaceTypeAliases
  | volume
  | energyProvider
  | co2Measure
  | commandsCommand
  | parameter
  deriving DecidableEq, Repr

/-- A content model. -/
inductive Content where
  /-- Nothing. -/
  | empty
  /-- One element with this name, at this place. -/
  | el (name : String) (p : XPlace)
  /-- One after the other. -/
  | seq (a b : Content)
  /-- One or the other. -/
  | choice (a b : Content)
  /-- `minOccurs="0"` -/
  | opt (a : Content)
  /-- `minOccurs="0" maxOccurs="unbounded"` -/
  | many (a : Content)
  /-- `maxOccurs="unbounded"` -/
  | some (a : Content)
  /-- One thing in the schemas before version `w`, another from then on. -/
  | switch (w : Int) (old new : Content)
  deriving DecidableEq, Repr

/-- One after the other. -/
@[reducible] def Content.seqs : List Content → Content
  | [] => .empty
  | a :: as => .seq a (seqs as)

/-- Declared from version `w` on. -/
@[reducible] def Content.since (w : Int) (a : Content) : Content := .switch w .empty a

/-- An attribute of an element, declared from version `since` on or in all versions. -/
structure XAttr where
  name : String
  since : Option Int := none
  required : Bool := false
  deriving DecidableEq, Repr

/-- Whether the schema of a version declares it. -/
def XAttr.In (d : XAttr) (v : Int) : Prop := ∀ w ∈ d.since, w ≤ v

/-- The attributes that are declared for the elements at a place.  (The declaration of the namespace in the root
is not an attribute to a schema; it is listed here because `Xml` does not tell it apart.) -/
def XPlace.attrs : XPlace → List XAttr
  | .bom => [{ name := "xmlns" }, { name := "version" }, { name := "serialNumber", since := some SpecVersion1_1 }]
  | .component => [{ name := "type", required := true }, { name := "bom-ref", since := some SpecVersion1_1 }, { name := "mime-type", since := some SpecVersion1_2 }, { name := "isExternal", since := some SpecVersion1_7 }]
  | .organizationalEntity => [{ name := "bom-ref", since := some SpecVersion1_5 }]
  | .service => [{ name := "bom-ref" }]
  | .externalReference => [{ name := "type", required := true }]
  | .dependency => [{ name := "ref", required := true }]
  | .composition => [{ name := "bom-ref", since := some SpecVersion1_5 }]
  | .property => [{ name := "name", required := true }]
  | .vulnerability => [{ name := "bom-ref" }]
  | .annotation => [{ name := "bom-ref" }]
  | .formula => [{ name := "bom-ref" }]
  | .citation => [{ name := "bom-ref" }]
  | .organizationalContact => [{ name := "bom-ref", since := some SpecVersion1_5 }]
  | .swid => [{ name := "tagId", required := true }, { name := "name", required := true }, { name := "version" }, { name := "tagVersion" }, { name := "patch" }]
  | .modelCard => [{ name := "bom-ref" }]
  | .componentData => [{ name := "bom-ref" }]
  | .postalAddress => [{ name := "bom-ref" }]
  | .license => [{ name := "bom-ref", since := some SpecVersion1_5 }, { name := "acknowledgement", since := some SpecVersion1_6 }]
  | .licenseExpression => [{ name := "bom-ref", since := some SpecVersion1_6 }, { name := "acknowledgement", since := some SpecVersion1_6 }]
  | .licenseExpressionDetailed => [{ name := "bom-ref" }, { name := "acknowledgement" }, { name := "expression", required := true }]
  | .assessor => [{ name := "bom-ref" }]
  | .claim => [{ name := "bom-ref" }]
  | .declarationsEvidenceEvidence => [{ name := "bom-ref" }]
  | .standard => [{ name := "bom-ref" }]
  | .patent => [{ name := "bom-ref" }]
  | .patentFamily => [{ name := "bom-ref" }]
  | .hash => [{ name := "alg", required := true }]
  | .patentAssertion => [{ name := "bom-ref" }]
  | .attachedText => [{ name := "content-type" }, { name := "encoding" }]
  | .licenseExpressionDetailedTypeDetails => [{ name := "license-identifier", required := true }, { name := "bom-ref" }]
  | .dataClassification => [{ name := "flow", required := true }]
  | .dataflow => [{ name := "name" }, { name := "description" }]
  | .bomReference => [{ name := "ref", required := true }]
  | .workflow => [{ name := "bom-ref", required := true }]
  | .patch => [{ name := "type", required := true }]
  | .occurrence => [{ name := "bom-ref" }]
  | .issue => [{ name := "type", required := true }]
  | .trigger => [{ name := "bom-ref", required := true }]
  | .requirement => [{ name := "bom-ref" }]
  | .level => [{ name := "bom-ref" }]
  | .task => [{ name := "bom-ref", required := true }]
  | .workspace => [{ name := "bom-ref", required := true }]
  | .energyProvider => [{ name := "bom-ref" }]
  | _ => []

/-- Whether text may be in the elements at a place. -/
def XPlace.mixed : XPlace → Bool
  | .text => true
  | .property => true
  | .licenseExpression => true
  | .hash => true
  | .attachedText => true
  | .dataClassification => true
  | .encr => true
  | .prf => true
  | .ke => true
  | _ => false

/-- The elements that may be in the elements at a place. -/
def XPlace.content : XPlace → Content
  | .text => .empty
  | .bom => .seqs [.since SpecVersion1_2 (.opt (.el "metadata" .metadata)), .switch SpecVersion1_2 (.el "components" .components) (.opt (.el "components" .components)), .since SpecVersion1_2 (.opt (.el "services" .services)), .since SpecVersion1_1 (.opt (.el "externalReferences" .externalReferences)), .since SpecVersion1_2 (.opt (.el "dependencies" .dependencies)), .since SpecVersion1_3 (.opt (.el "compositions" .compositions)), .since SpecVersion1_3 (.opt (.el "properties" .properties)), .since SpecVersion1_4 (.opt (.el "vulnerabilities" .vulnerabilities)), .since SpecVersion1_5 (.opt (.el "annotations" .annotations)), .since SpecVersion1_5 (.opt (.el "formulation" .formulation)), .since SpecVersion1_6 (.opt (.el "declarations" .declarations)), .since SpecVersion1_6 (.opt (.el "definitions" .definitions)), .since SpecVersion1_7 (.opt (.el "citations" .citations))]
  | .metadata => .opt (.seqs [.opt (.el "timestamp" .text), .since SpecVersion1_5 (.opt (.el "lifecycles" .lifecycles)), .opt (.el "tools" .tools), .opt (.el "authors" .authors), .opt (.el "component" .component), .since SpecVersion1_6 (.opt (.el "manufacturer" .organizationalEntity)), .switch SpecVersion1_3 (.many (.el "manufacture" .organizationalEntity)) (.opt (.el "manufacture" .organizationalEntity)), .switch SpecVersion1_3 (.many (.el "supplier" .organizationalEntity)) (.opt (.el "supplier" .organizationalEntity)), .since SpecVersion1_3 (.opt (.el "licenses" .licenseChoice)), .since SpecVersion1_3 (.opt (.el "properties" .properties)), .since SpecVersion1_7 (.opt (.el "distributionConstraints" .distributionConstraints))])
  | .components => .many (.el "component" .component)
  | .services => .many (.el "service" .service)
  | .externalReferences => .many (.el "reference" .externalReference)
  | .dependencies => .many (.el "dependency" .dependency)
  | .compositions => .many (.el "composition" .composition)
  | .properties => .many (.el "property" .property)
  | .vulnerabilities => .many (.el "vulnerability" .vulnerability)
  | .annotations => .many (.el "annotation" .annotation)
  | .formulation => .many (.el "formula" .formula)
  | .declarations => .seqs [.opt (.el "assessors" .assessors), .opt (.el "attestations" .attestations), .opt (.el "claims" .claims), .opt (.el "evidence" .evidence), .opt (.el "targets" .targets), .opt (.el "affirmation" .affirmation)]
  | .definitions => .seqs [.opt (.el "standards" .standards), .since SpecVersion1_7 (.opt (.el "patents" .definitionsTypePatents))]
  | .citations => .some (.el "citation" .citation)
  | .lifecycles => .many (.el "lifecycle" .lifecyclesLifecycle)
  | .tools => .switch SpecVersion1_5 (.many (.el "tool" .tool)) (.choice (.many (.el "tool" .tool)) (.opt (.seqs [.opt (.el "components" .components), .opt (.el "services" .services)])))
  | .authors => .many (.el "author" .organizationalContact)
  | .component => .seqs [.since SpecVersion1_2 (.opt (.el "supplier" .organizationalEntity)), .since SpecVersion1_6 (.opt (.el "manufacturer" .organizationalEntity)), .since SpecVersion1_6 (.opt (.el "authors" .authors)), .since SpecVersion1_2 (.opt (.el "author" .text)), .opt (.el "publisher" .text), .opt (.el "group" .text), .el "name" .text, .switch SpecVersion1_7 (.switch SpecVersion1_4 (.el "version" .text) (.opt (.el "version" .text))) (.opt (.choice (.el "version" .text) (.el "versionRange" .text))), .opt (.el "description" .text), .opt (.el "scope" .text), .opt (.el "hashes" .toolTypeHashes), .opt (.el "licenses" .licenseChoice), .opt (.el "copyright" .text), .since SpecVersion1_7 (.opt (.el "patentAssertions" .servicePatentAssertions)), .opt (.el "cpe" .text), .opt (.el "purl" .text), .since SpecVersion1_6 (.many (.el "omniborId" .text)), .since SpecVersion1_6 (.many (.el "swhid" .text)), .since SpecVersion1_2 (.opt (.el "swid" .swid)), .switch SpecVersion1_1 (.el "modified" .text) (.opt (.el "modified" .text)), .since SpecVersion1_1 (.opt (.el "pedigree" .pedigree)), .since SpecVersion1_1 (.opt (.el "externalReferences" .externalReferences)), .since SpecVersion1_3 (.opt (.el "properties" .properties)), .opt (.el "components" .components), .since SpecVersion1_3 (.opt (.el "evidence" .componentEvidence)), .since SpecVersion1_4 (.opt (.el "releaseNotes" .releaseNotes)), .since SpecVersion1_5 (.opt (.el "modelCard" .modelCard)), .switch SpecVersion1_7 (.since SpecVersion1_5 (.opt (.el "data" .componentData))) (.many (.el "data" .componentData)), .since SpecVersion1_6 (.opt (.el "cryptoProperties" .cryptoProperties)), .since SpecVersion1_6 (.opt (.el "tags" .tags))]
  | .organizationalEntity => .opt (.seqs [.opt (.el "name" .text), .since SpecVersion1_6 (.opt (.el "address" .postalAddress)), .many (.el "url" .text), .many (.el "contact" .organizationalContact)])
  | .licenseChoice => .switch SpecVersion1_7 (.switch SpecVersion1_1 (.some (.el "license" .license)) (.choice (.many (.el "license" .license)) (.opt (.el "expression" .licenseExpression)))) (.many (.choice (.el "license" .license) (.choice (.el "expression" .licenseExpression) (.el "expression-detailed" .licenseExpressionDetailed))))
  | .distributionConstraints => .opt (.el "tlp" .text)
  | .service => .seqs [.opt (.el "provider" .organizationalEntity), .opt (.el "group" .text), .el "name" .text, .opt (.el "version" .text), .opt (.el "description" .text), .opt (.el "endpoints" .serviceEndpoints), .opt (.el "authenticated" .text), .opt (.el "x-trust-boundary" .text), .since SpecVersion1_5 (.opt (.el "trustZone" .text)), .opt (.el "data" .serviceData), .opt (.el "licenses" .licenseChoice), .since SpecVersion1_7 (.opt (.el "patentAssertions" .servicePatentAssertions)), .opt (.el "externalReferences" .externalReferences), .since SpecVersion1_3 (.opt (.el "properties" .properties)), .opt (.el "services" .services), .since SpecVersion1_4 (.opt (.el "releaseNotes" .releaseNotes)), .since SpecVersion1_6 (.opt (.el "tags" .tags))]
  | .externalReference => .seqs [.el "url" .text, .opt (.el "comment" .text), .since SpecVersion1_3 (.opt (.el "hashes" .toolTypeHashes)), .since SpecVersion1_7 (.opt (.el "properties" .properties))]
  | .dependency => .many (.seqs [.switch SpecVersion1_6 (.el "dependency" .dependency) (.opt (.el "dependency" .dependency)), .since SpecVersion1_6 (.opt (.el "provides" .bomReference))])
  | .composition => .many (.seqs [.el "aggregate" .text, .opt (.el "assemblies" .assemblies), .opt (.el "dependencies" .compositionDependencies), .since SpecVersion1_5 (.opt (.el "vulnerabilities" .compositionVulnerabilities))])
  | .property => .empty
  | .vulnerability => .opt (.seqs [.opt (.el "id" .text), .opt (.el "source" .vulnerabilitySource), .opt (.el "references" .references), .opt (.el "ratings" .ratings), .opt (.el "cwes" .cwes), .opt (.el "description" .text), .opt (.el "detail" .text), .opt (.el "recommendation" .text), .since SpecVersion1_5 (.opt (.el "workaround" .text)), .since SpecVersion1_5 (.opt (.el "proofOfConcept" .proofOfConcept)), .opt (.el "advisories" .advisories), .opt (.el "created" .text), .opt (.el "published" .text), .opt (.el "updated" .text), .since SpecVersion1_5 (.opt (.el "rejected" .text)), .opt (.el "credits" .credits), .opt (.el "tools" .tools), .opt (.el "analysis" .analysis), .opt (.el "affects" .affects), .opt (.el "properties" .properties)])
  | .annotation => .seqs [.opt (.el "subjects" .annotationTypeSubjects), .el "annotator" .annotatorChoice, .el "timestamp" .text, .el "text" .text]
  | .formula => .seqs [.opt (.el "components" .components), .opt (.el "services" .services), .opt (.el "workflows" .workflows), .opt (.el "properties" .properties)]
  | .assessors => .many (.el "assessor" .assessor)
  | .attestations => .many (.el "attestation" .attestation)
  | .claims => .many (.el "claim" .claim)
  | .evidence => .many (.el "evidence" .declarationsEvidenceEvidence)
  | .targets => .seqs [.opt (.el "organizations" .targetsOrganizations), .opt (.el "components" .components), .opt (.el "services" .services)]
  | .affirmation => .seqs [.opt (.el "statement" .text), .opt (.el "signatories" .signatories)]
  | .standards => .many (.el "standard" .standard)
  | .definitionsTypePatents => .many (.choice (.el "patent" .patent) (.el "patentFamily" .patentFamily))
  | .citation => .seqs [.choice (.el "pointers" .citationTypePointers) (.el "expressions" .citationTypeExpressions), .el "timestamp" .text, .opt (.el "attributedTo" .text), .opt (.el "process" .text), .opt (.el "note" .text)]
  | .lifecyclesLifecycle => .choice (.el "phase" .text) (.seqs [.el "name" .text, .opt (.el "description" .text)])
  | .tool => .opt (.seqs [.opt (.el "vendor" .text), .opt (.el "name" .text), .opt (.el "version" .text), .opt (.el "hashes" .toolTypeHashes), .since SpecVersion1_4 (.opt (.el "externalReferences" .externalReferences))])
  | .organizationalContact => .opt (.seqs [.opt (.el "name" .text), .switch SpecVersion1_3 (.many (.el "email" .text)) (.opt (.el "email" .text)), .switch SpecVersion1_3 (.many (.el "phone" .text)) (.opt (.el "phone" .text))])
  | .swid => .seqs [.opt (.el "text" .attachedText), .opt (.el "url" .text)]
  | .pedigree => .seqs [.opt (.el "ancestors" .components), .opt (.el "descendants" .components), .opt (.el "variants" .components), .opt (.el "commits" .commits), .since SpecVersion1_2 (.opt (.el "patches" .patches)), .opt (.el "notes" .text)]
  | .componentEvidence => .seqs [.switch SpecVersion1_6 (.since SpecVersion1_5 (.opt (.el "identity" .identity))) (.many (.el "identity" .identity)), .since SpecVersion1_5 (.opt (.el "occurrences" .occurrences)), .since SpecVersion1_5 (.opt (.el "callstack" .callstack)), .opt (.el "licenses" .licenseChoice), .opt (.el "copyright" .copyrights)]
  | .releaseNotes => .many (.seqs [.el "type" .text, .opt (.el "title" .text), .opt (.el "featuredImage" .text), .opt (.el "socialImage" .text), .opt (.el "description" .text), .opt (.el "timestamp" .text), .opt (.el "aliases" .workspaceTypeAliases), .opt (.el "tags" .tags), .opt (.el "resolves" .patchTypeResolves), .opt (.el "notes" .notes), .opt (.el "properties" .properties)])
  | .modelCard => .seqs [.opt (.el "modelParameters" .modelParameters), .opt (.el "quantitativeAnalysis" .quantitativeAnalysis), .opt (.el "considerations" .considerations)]
  | .componentData => .seqs [.el "type" .text, .opt (.el "name" .text), .opt (.el "contents" .contents), .opt (.el "classification" .text), .many (.el "sensitiveData" .text), .opt (.el "graphics" .graphicsCollection), .opt (.el "description" .text), .opt (.el "governance" .dataGovernance)]
  | .cryptoProperties => .seqs [.el "assetType" .text, .opt (.el "algorithmProperties" .algorithmProperties), .opt (.el "certificateProperties" .certificateProperties), .opt (.el "relatedCryptoMaterialProperties" .relatedCryptoMaterialProperties), .opt (.el "protocolProperties" .protocolProperties), .opt (.el "oid" .text)]
  | .tags => .many (.el "tag" .text)
  | .postalAddress => .seqs [.opt (.el "country" .text), .opt (.el "region" .text), .opt (.el "locality" .text), .opt (.el "postOfficeBoxNumber" .text), .opt (.el "postalCode" .text), .opt (.el "streetAddress" .text)]
  | .license => .seqs [.switch SpecVersion1_6 (.switch SpecVersion1_1 (.choice (.many (.el "id" .text)) (.many (.el "name" .text))) (.choice (.opt (.el "id" .text)) (.opt (.el "name" .text)))) (.choice (.el "id" .text) (.el "name" .text)), .since SpecVersion1_1 (.opt (.el "text" .attachedText)), .since SpecVersion1_1 (.opt (.el "url" .text)), .since SpecVersion1_5 (.opt (.el "licensing" .licensing)), .since SpecVersion1_5 (.opt (.el "properties" .properties))]
  | .licenseExpression => .empty
  | .licenseExpressionDetailed => .seqs [.many (.el "details" .licenseExpressionDetailedTypeDetails), .opt (.el "licensing" .licensing), .opt (.el "properties" .properties)]
  | .serviceEndpoints => .many (.el "endpoint" .text)
  | .serviceData => .switch SpecVersion1_5 (.many (.el "classification" .dataClassification)) (.choice (.many (.el "classification" .dataClassification)) (.many (.el "dataflow" .dataflow)))
  | .servicePatentAssertions => .many (.el "patentAssertion" .patentAssertion)
  | .assemblies => .many (.el "assembly" .bomReference)
  | .compositionDependencies => .many (.el "dependency" .bomReference)
  | .compositionVulnerabilities => .many (.el "vulnerability" .bomReference)
  | .vulnerabilitySource => .many (.seqs [.opt (.el "name" .text), .opt (.el "url" .text)])
  | .references => .many (.el "reference" .referencesReference)
  | .ratings => .many (.el "rating" .rating)
  | .cwes => .many (.el "cwe" .text)
  | .proofOfConcept => .seqs [.opt (.el "reproductionSteps" .text), .opt (.el "environment" .text), .opt (.el "supportingMaterial" .proofOfConceptSupportingMaterial)]
  | .advisories => .many (.el "advisory" .advisory)
  | .credits => .seqs [.opt (.el "organizations" .targetsOrganizations), .opt (.el "individuals" .creditsIndividuals)]
  | .analysis => .opt (.seqs [.opt (.el "state" .text), .opt (.el "justification" .text), .opt (.el "responses" .analysisResponses), .opt (.el "detail" .text), .since SpecVersion1_5 (.opt (.el "firstIssued" .text)), .since SpecVersion1_5 (.opt (.el "lastUpdated" .text))])
  | .affects => .many (.el "target" .target)
  | .annotationTypeSubjects => .many (.el "subject" .bomReference)
  | .annotatorChoice => .choice (.opt (.el "organization" .organizationalEntity)) (.choice (.opt (.el "individual" .organizationalContact)) (.choice (.opt (.el "component" .component)) (.opt (.el "service" .service))))
  | .workflows => .many (.el "workflow" .workflow)
  | .assessor => .seqs [.opt (.el "thirdParty" .text), .opt (.el "organization" .organizationalEntity)]
  | .attestation => .seqs [.opt (.el "summary" .text), .opt (.el "assessor" .text), .many (.el "map" .attestationMap)]
  | .claim => .seqs [.opt (.el "target" .text), .opt (.el "predicate" .text), .opt (.el "mitigationStrategies" .claimMitigationStrategies), .opt (.el "reasoning" .text), .many (.el "evidence" .text), .many (.el "counterEvidence" .text), .opt (.el "externalReferences" .externalReferences)]
  | .declarationsEvidenceEvidence => .seqs [.opt (.el "propertyName" .text), .opt (.el "description" .text), .many (.el "data" .data), .opt (.el "created" .text), .opt (.el "expires" .text), .opt (.el "author" .organizationalContact), .opt (.el "reviewer" .organizationalContact)]
  | .targetsOrganizations => .many (.el "organization" .organizationalEntity)
  | .signatories => .many (.el "signatory" .signatory)
  | .standard => .seqs [.el "name" .text, .el "version" .text, .el "description" .text, .el "owner" .text, .opt (.el "requirements" .standardRequirements), .opt (.el "levels" .standardLevels), .opt (.el "externalReferences" .externalReferences)]
  | .patent => .seqs [.el "patentNumber" .text, .opt (.el "applicationNumber" .text), .el "jurisdiction" .text, .opt (.el "priorityApplication" .priorityApplication), .opt (.el "publicationNumber" .text), .opt (.el "title" .text), .opt (.el "abstract" .text), .opt (.el "filingDate" .text), .opt (.el "grantDate" .text), .opt (.el "patentExpirationDate" .text), .el "patentLegalStatus" .text, .many (.el "patentAssignee" .licensee), .opt (.el "externalReferences" .externalReferences)]
  | .patentFamily => .seqs [.el "familyId" .text, .opt (.el "priorityApplication" .priorityApplication), .opt (.el "members" .patentFamilyTypeMembers), .opt (.el "externalReferences" .externalReferences)]
  | .citationTypePointers => .some (.el "pointer" .text)
  | .citationTypeExpressions => .some (.el "expression" .text)
  | .toolTypeHashes => .many (.el "hash" .hash)
  | .hash => .empty
  | .patentAssertion => .seqs [.el "assertionType" .text, .opt (.el "patentRefs" .patentRefs), .el "asserter" .asserter, .opt (.el "notes" .text)]
  | .attachedText => .empty
  | .commits => .many (.el "commit" .commit)
  | .patches => .many (.el "patch" .patch)
  | .identity => .seqs [.el "field" .text, .opt (.el "confidence" .text), .since SpecVersion1_6 (.opt (.el "concludedValue" .text)), .opt (.el "methods" .methods), .opt (.el "tools" .componentEvidenceIdentityTools)]
  | .occurrences => .many (.el "occurrence" .occurrence)
  | .callstack => .seqs [.opt (.el "frames" .frames), .opt (.el "tools" .componentEvidenceIdentityTools)]
  | .copyrights => .many (.el "text" .text)
  | .notes => .many (.el "note" .notesNote)
  | .modelParameters => .seqs [.opt (.el "approach" .approach), .opt (.el "task" .text), .opt (.el "architectureFamily" .text), .opt (.el "modelArchitecture" .text), .opt (.el "datasets" .datasets), .opt (.el "inputs" .inputs), .opt (.el "outputs" .outputs)]
  | .quantitativeAnalysis => .seqs [.opt (.el "performanceMetrics" .performanceMetrics), .opt (.el "graphics" .graphicsCollection)]
  | .considerations => .seqs [.opt (.el "users" .users), .opt (.el "useCases" .useCases), .opt (.el "technicalLimitations" .technicalLimitations), .opt (.el "performanceTradeoffs" .performanceTradeoffs), .opt (.el "ethicalConsiderations" .ethicalConsiderations), .since SpecVersion1_6 (.opt (.el "environmentalConsiderations" .environmentalConsiderations)), .opt (.el "fairnessAssessments" .fairnessAssessments)]
  | .contents => .seqs [.opt (.el "attachment" .attachedText), .opt (.el "url" .text), .opt (.el "properties" .properties)]
  | .graphicsCollection => .seqs [.opt (.el "description" .text), .opt (.el "collection" .collection)]
  | .dataGovernance => .seqs [.opt (.el "custodians" .dataGovernanceCustodians), .opt (.el "stewards" .dataGovernanceStewards), .opt (.el "owners" .dataGovernanceOwners)]
  | .algorithmProperties => .seqs [.opt (.el "primitive" .text), .since SpecVersion1_7 (.opt (.el "algorithmFamily" .text)), .opt (.el "parameterSetIdentifier" .text), .opt (.el "curve" .text), .since SpecVersion1_7 (.opt (.el "ellipticCurve" .text)), .opt (.el "executionEnvironment" .text), .opt (.el "implementationPlatform" .text), .many (.el "certificationLevel" .text), .opt (.el "mode" .text), .opt (.el "padding" .text), .opt (.el "cryptoFunctions" .algorithmPropertiesCryptoFunctions), .opt (.el "classicalSecurityLevel" .text), .opt (.el "nistQuantumSecurityLevel" .text)]
  | .certificateProperties => .seqs [.since SpecVersion1_7 (.opt (.el "serialNumber" .text)), .opt (.el "subjectName" .text), .opt (.el "issuerName" .text), .opt (.el "notValidBefore" .text), .opt (.el "notValidAfter" .text), .opt (.el "signatureAlgorithmRef" .text), .opt (.el "subjectPublicKeyRef" .text), .opt (.el "certificateFormat" .text), .opt (.el "certificateExtension" .text), .since SpecVersion1_7 (.opt (.el "certificateFileExtension" .text)), .since SpecVersion1_7 (.opt (.el "fingerprint" .hash)), .since SpecVersion1_7 (.many (.el "certificateState" .certificateState)), .since SpecVersion1_7 (.opt (.el "creationDate" .text)), .since SpecVersion1_7 (.opt (.el "activationDate" .text)), .since SpecVersion1_7 (.opt (.el "deactivationDate" .text)), .since SpecVersion1_7 (.opt (.el "revocationDate" .text)), .since SpecVersion1_7 (.opt (.el "destructionDate" .text)), .since SpecVersion1_7 (.opt (.el "certificateExtensions" .certificateExtensions)), .since SpecVersion1_7 (.opt (.el "relatedCryptographicAssets" .relatedCryptographicAssets))]
  | .relatedCryptoMaterialProperties => .seqs [.opt (.el "type" .text), .opt (.el "id" .text), .opt (.el "state" .text), .opt (.el "algorithmRef" .text), .opt (.el "creationDate" .text), .opt (.el "activationDate" .text), .opt (.el "updateDate" .text), .opt (.el "expirationDate" .text), .opt (.el "value" .text), .opt (.el "size" .text), .opt (.el "format" .text), .opt (.el "securedBy" .securedBy), .since SpecVersion1_7 (.opt (.el "fingerprint" .hash)), .since SpecVersion1_7 (.opt (.el "relatedCryptographicAssets" .relatedCryptographicAssets))]
  | .protocolProperties => .seqs [.opt (.el "type" .text), .opt (.el "version" .text), .opt (.el "cipherSuites" .cipherSuites), .opt (.el "ikev2TransformTypes" .ikev2TransformTypes), .since SpecVersion1_7 (.many (.el "cryptoRef" .text))]
  | .licensing => .seqs [.opt (.el "altIds" .altIds), .opt (.el "licensor" .licensee), .opt (.el "licensee" .licensee), .opt (.el "purchaser" .licensee), .opt (.el "purchaseOrder" .text), .opt (.el "licenseTypes" .licenseTypes), .opt (.el "lastRenewal" .text), .opt (.el "expiration" .text)]
  | .licenseExpressionDetailedTypeDetails => .seqs [.opt (.el "text" .attachedText), .opt (.el "url" .text)]
  | .dataClassification => .empty
  | .dataflow => .seqs [.opt (.el "classification" .dataClassification), .opt (.el "governance" .dataGovernance), .opt (.el "source" .issueTypeReferences), .opt (.el "destination" .issueTypeReferences)]
  | .bomReference => .empty
  | .referencesReference => .seqs [.switch SpecVersion1_6 (.opt (.el "id" .text)) (.el "id" .text), .switch SpecVersion1_6 (.opt (.el "source" .vulnerabilitySource)) (.el "source" .vulnerabilitySource)]
  | .rating => .seqs [.opt (.el "source" .vulnerabilitySource), .opt (.el "score" .text), .opt (.el "severity" .text), .opt (.el "method" .text), .opt (.el "vector" .text), .opt (.el "justification" .text)]
  | .proofOfConceptSupportingMaterial => .many (.el "attachment" .attachedText)
  | .advisory => .seqs [.opt (.el "title" .text), .el "url" .text]
  | .creditsIndividuals => .many (.el "individual" .organizationalContact)
  | .analysisResponses => .many (.el "response" .text)
  | .target => .opt (.seqs [.el "ref" .text, .opt (.el "versions" .targetVersions)])
  | .workflow => .seqs [.el "uid" .text, .opt (.el "name" .text), .opt (.el "description" .text), .opt (.el "resourceReferences" .resourceReferences), .opt (.el "tasks" .tasks), .opt (.el "taskDependencies" .dependencies), .el "taskTypes" .taskTypeTaskTypes, .opt (.el "trigger" .trigger), .opt (.el "steps" .taskTypeSteps), .opt (.el "inputs" .taskTypeInputs), .opt (.el "outputs" .taskTypeOutputs), .opt (.el "timeStart" .text), .opt (.el "timeEnd" .text), .opt (.el "workspaces" .workspaces), .opt (.el "runtimeTopology" .dependencies), .opt (.el "properties" .properties)]
  | .attestationMap => .seqs [.opt (.el "requirement" .text), .opt (.el "claims" .declarationsAttestationsAttestationMapClaims), .opt (.el "counterClaims" .counterClaims), .opt (.el "conformance" .conformance), .opt (.el "confidence" .confidence)]
  | .claimMitigationStrategies => .many (.el "mitigationStrategy" .text)
  | .data => .seqs [.opt (.el "name" .text), .opt (.el "contents" .dataContents), .opt (.el "classification" .text), .many (.el "sensitiveData" .text), .opt (.el "governance" .dataGovernance)]
  | .signatory => .seqs [.opt (.el "name" .text), .opt (.el "role" .text), .opt (.el "organization" .organizationalEntity), .opt (.el "externalReference" .externalReference)]
  | .standardRequirements => .many (.el "requirement" .requirement)
  | .standardLevels => .many (.el "level" .level)
  | .priorityApplication => .seqs [.el "applicationNumber" .text, .el "jurisdiction" .text, .el "filingDate" .text]
  | .patentFamilyTypeMembers => .some (.el "ref" .text)
  | .patentRefs => .some (.el "bom-ref" .text)
  | .asserter => .choice (.el "organization" .organizationalEntity) (.choice (.el "contact" .organizationalContact) (.el "ref" .text))
  | .commit => .seqs [.opt (.el "uid" .text), .opt (.el "url" .text), .opt (.el "author" .identifiableAction), .opt (.el "committer" .identifiableAction), .opt (.el "message" .text)]
  | .patch => .seqs [.opt (.el "diff" .diff), .opt (.el "resolves" .patchTypeResolves)]
  | .methods => .many (.el "method" .methodsMethod)
  | .componentEvidenceIdentityTools => .many (.el "tool" .bomReference)
  | .occurrence => .seqs [.el "location" .text, .since SpecVersion1_6 (.opt (.el "line" .text)), .since SpecVersion1_6 (.opt (.el "offset" .text)), .since SpecVersion1_6 (.opt (.el "symbol" .text)), .since SpecVersion1_6 (.opt (.el "additionalContext" .text))]
  | .frames => .many (.el "frame" .framesFrame)
  | .issue => .seqs [.opt (.el "id" .text), .opt (.el "name" .text), .opt (.el "description" .text), .opt (.el "source" .issueTypeSource), .opt (.el "references" .issueTypeReferences)]
  | .notesNote => .many (.seqs [.opt (.el "locale" .text), .el "text" .attachedText])
  | .approach => .opt (.el "type" .text)
  | .datasets => .many (.choice (.el "ref" .text) (.el "dataset" .componentData))
  | .inputs => .many (.el "input" .modelCardModelParametersInputsInput)
  | .outputs => .many (.el "output" .modelCardModelParametersInputsInput)
  | .performanceMetrics => .many (.el "performanceMetric" .performanceMetric)
  | .users => .opt (.el "user" .text)
  | .useCases => .opt (.el "useCase" .text)
  | .technicalLimitations => .opt (.el "technicalLimitation" .text)
  | .performanceTradeoffs => .opt (.el "performanceTradeoff" .text)
  | .ethicalConsiderations => .many (.el "ethicalConsideration" .ethicalConsideration)
  | .environmentalConsiderations => .seqs [.many (.el "energyConsumptions" .energyConsumptions), .opt (.el "properties" .properties)]
  | .fairnessAssessments => .many (.el "fairnessAssessment" .fairnessAssessment)
  | .collection => .many (.el "graphic" .graphic)
  | .dataGovernanceCustodians => .many (.el "custodian" .licensee)
  | .dataGovernanceStewards => .many (.el "steward" .licensee)
  | .dataGovernanceOwners => .many (.el "owner" .licensee)
  | .algorithmPropertiesCryptoFunctions => .many (.el "cryptoFunction" .text)
  | .certificateState => .choice (.seqs [.el "state" .text, .opt (.el "reason" .text)]) (.seqs [.el "name" .text, .opt (.el "description" .text), .opt (.el "reason" .text)])
  | .certificateExtensions => .many (.el "certificateExtension" .certificateExtension)
  | .relatedCryptographicAssets => .many (.el "relatedCryptographicAsset" .relatedCryptographicAsset)
  | .securedBy => .seqs [.opt (.el "mechanism" .text), .opt (.el "algorithmRef" .text)]
  | .cipherSuites => .many (.el "cipherSuite" .cipherSuite)
  | .ikev2TransformTypes => .seqs [.many (.el "encr" .encr), .many (.el "prf" .prf), .many (.el "integ" .prf), .many (.el "ke" .ke), .opt (.el "esn" .text), .many (.el "auth" .prf)]
  | .altIds => .many (.el "altId" .text)
  | .licensee => .choice (.opt (.el "organization" .organizationalEntity)) (.opt (.el "individual" .organizationalContact))
  | .licenseTypes => .many (.el "licenseType" .text)
  | .targetVersions => .many (.el "version" .targetVersionsVersion)
  | .resourceReferences => .many (.el "resourceReference" .resourceReference)
  | .tasks => .many (.el "task" .task)
  | .trigger => .seqs [.el "uid" .text, .opt (.el "name" .text), .opt (.el "description" .text), .opt (.el "resourceReferences" .resourceReferences), .el "type" .text, .opt (.el "event" .event), .opt (.el "conditions" .conditions), .opt (.el "timeActivated" .text), .opt (.el "inputs" .taskTypeInputs), .opt (.el "outputs" .taskTypeOutputs), .opt (.el "properties" .properties)]
  | .workspaces => .many (.el "workspace" .workspace)
  | .declarationsAttestationsAttestationMapClaims => .many (.el "claim" .text)
  | .counterClaims => .many (.el "counterClaim" .text)
  | .conformance => .seqs [.el "score" .text, .opt (.el "rationale" .text), .opt (.el "mitigationStrategies" .claimMitigationStrategies)]
  | .confidence => .seqs [.el "score" .text, .opt (.el "rationale" .text)]
  | .dataContents => .seqs [.opt (.el "attachment" .attachedText), .opt (.el "url" .text)]
  | .requirement => .seqs [.opt (.el "identifier" .text), .opt (.el "title" .text), .opt (.el "text" .text), .opt (.el "descriptions" .requirementDescriptions), .many (.el "openCre" .text), .opt (.el "parent" .text), .opt (.el "properties" .properties), .opt (.el "externalReferences" .externalReferences)]
  | .level => .seqs [.opt (.el "identifier" .text), .opt (.el "title" .text), .opt (.el "description" .text), .opt (.el "requirements" .levelRequirements)]
  | .identifiableAction => .seqs [.opt (.el "timestamp" .text), .opt (.el "name" .text), .opt (.el "email" .text)]
  | .diff => .seqs [.opt (.el "text" .attachedText), .opt (.el "url" .text)]
  | .patchTypeResolves => .many (.el "issue" .issue)
  | .methodsMethod => .seqs [.el "technique" .text, .el "confidence" .text, .opt (.el "value" .text)]
  | .framesFrame => .seqs [.opt (.el "package" .text), .el "module" .text, .opt (.el "function" .text), .opt (.el "parameters" .framesFrameParameters), .opt (.el "line" .text), .opt (.el "column" .text), .opt (.el "fullFilename" .text)]
  | .issueTypeSource => .seqs [.opt (.el "name" .text), .opt (.el "url" .text)]
  | .issueTypeReferences => .many (.el "url" .text)
  | .modelCardModelParametersInputsInput => .el "format" .text
  | .performanceMetric => .seqs [.opt (.el "type" .text), .opt (.el "value" .text), .opt (.el "slice" .text), .opt (.el "confidenceInterval" .performanceMetricConfidenceInterval)]
  | .ethicalConsideration => .seqs [.opt (.el "name" .text), .opt (.el "mitigationStrategy" .text)]
  | .energyConsumptions => .many (.el "energyConsumption" .energyConsumption)
  | .fairnessAssessment => .seqs [.opt (.el "groupAtRisk" .text), .opt (.el "benefits" .text), .opt (.el "harms" .text), .opt (.el "mitigationStrategy" .text)]
  | .graphic => .seqs [.opt (.el "name" .text), .opt (.el "image" .attachedText)]
  | .certificateExtension => .choice (.seqs [.el "commonExtensionName" .text, .el "commonExtensionValue" .text]) (.seqs [.el "customExtensionName" .text, .opt (.el "customExtensionValue" .text)])
  | .relatedCryptographicAsset => .seqs [.opt (.el "type" .text), .opt (.el "ref" .text)]
  | .cipherSuite => .seqs [.opt (.el "name" .text), .opt (.el "algorithms" .cipherSuiteAlgorithms), .opt (.el "identifiers" .cipherSuiteIdentifiers), .since SpecVersion1_7 (.opt (.el "tlsGroups" .cipherSuiteTlsGroups)), .since SpecVersion1_7 (.opt (.el "tlsSignatureSchemes" .cipherSuiteTlsSignatureSchemes))]
  | .encr => .seqs [.since SpecVersion1_7 (.opt (.el "name" .text)), .since SpecVersion1_7 (.opt (.el "keyLength" .text)), .since SpecVersion1_7 (.opt (.el "algorithm" .text))]
  | .prf => .seqs [.since SpecVersion1_7 (.opt (.el "name" .text)), .since SpecVersion1_7 (.opt (.el "algorithm" .text))]
  | .ke => .seqs [.since SpecVersion1_7 (.opt (.el "group" .text)), .since SpecVersion1_7 (.opt (.el "algorithm" .text))]
  | .targetVersionsVersion => .opt (.seqs [.choice (.el "version" .text) (.el "range" .text), .opt (.el "status" .text)])
  | .resourceReference => .choice (.el "ref" .text) (.el "externalReference" .externalReference)
  | .task => .seqs [.el "uid" .text, .opt (.el "name" .text), .opt (.el "description" .text), .opt (.el "resourceReferences" .resourceReferences), .el "taskTypes" .taskTypeTaskTypes, .opt (.el "trigger" .trigger), .opt (.el "steps" .taskTypeSteps), .opt (.el "inputs" .taskTypeInputs), .opt (.el "outputs" .taskTypeOutputs), .opt (.el "timeStart" .text), .opt (.el "timeEnd" .text), .opt (.el "workspaces" .workspaces), .opt (.el "runtimeTopology" .dependencies), .opt (.el "properties" .properties)]
  | .event => .seqs [.opt (.el "uid" .text), .opt (.el "description" .text), .opt (.el "timeReceived" .text), .opt (.el "data" .attachedText), .opt (.el "source" .resourceReference), .opt (.el "target" .resourceReference), .opt (.el "properties" .properties)]
  | .conditions => .many (.el "condition" .conditionsCondition)
  | .step => .seqs [.opt (.el "name" .text), .opt (.el "description" .text), .opt (.el "commands" .commands), .opt (.el "properties" .properties)]
  | .input => .seqs [.choice (.el "resource" .resourceReference) (.choice (.el "parameters" .parameters) (.choice (.el "environmentVars" .inputTypeEnvironmentVars) (.el "data" .attachedText))), .opt (.el "source" .resourceReference), .opt (.el "target" .resourceReference), .opt (.el "properties" .properties)]
  | .output => .seqs [.choice (.el "resource" .resourceReference) (.choice (.el "environmentVars" .inputTypeEnvironmentVars) (.el "data" .attachedText)), .opt (.el "type" .text), .opt (.el "source" .resourceReference), .opt (.el "target" .resourceReference), .opt (.el "properties" .properties)]
  | .workspace => .many (.seqs [.el "uid" .text, .opt (.el "name" .text), .opt (.el "aliases" .workspaceTypeAliases), .opt (.el "description" .text), .opt (.el "resourceReferences" .resourceReferences), .opt (.el "accessMode" .text), .opt (.el "mountPath" .text), .opt (.el "managedDataType" .text), .opt (.el "volumeRequest" .text), .opt (.el "volume" .volume), .opt (.el "properties" .properties)])
  | .requirementDescriptions => .switch SpecVersion1_7 (.opt (.el "description" .text)) (.many (.el "description" .text))
  | .levelRequirements => .many (.el "requirement" .text)
  | .framesFrameParameters => .many (.el "parameter" .text)
  | .performanceMetricConfidenceInterval => .seqs [.opt (.el "lowerBound" .text), .opt (.el "upperBound" .text)]
  | .energyConsumption => .seqs [.el "activity" .text, .some (.el "energyProviders" .energyProvider), .el "activityEnergyCost" .co2Measure, .opt (.el "co2CostEquivalent" .co2Measure), .opt (.el "co2CostOffset" .co2Measure), .opt (.el "properties" .properties)]
  | .cipherSuiteAlgorithms => .many (.el "algorithm" .text)
  | .cipherSuiteIdentifiers => .many (.el "identifier" .text)
  | .cipherSuiteTlsGroups => .many (.el "group" .text)
  | .cipherSuiteTlsSignatureSchemes => .many (.el "signatureScheme" .text)
  | .taskTypeTaskTypes => .many (.el "taskType" .text)
  | .taskTypeSteps => .many (.el "step" .step)
  | .taskTypeInputs => .many (.el "input" .input)
  | .taskTypeOutputs => .many (.el "output" .output)
  | .conditionsCondition => .seqs [.opt (.el "description" .text), .opt (.el "expression" .text), .opt (.el "properties" .properties)]
  | .commands => .many (.el "command" .commandsCommand)
  | .parameters => .many (.el "parameter" .parameter)
  | .inputTypeEnvironmentVars => .many (.choice (.el "environmentVar" .property) (.el "value" .text))
  | .workspaceTypeAliases => .many (.el "alias" .text)
  | .volume => .seqs [.opt (.el "uid" .text), .opt (.el "name" .text), .opt (.el "mode" .text), .opt (.el "path" .text), .opt (.el "sizeAllocated" .text), .opt (.el "persistent" .text), .opt (.el "remote" .text), .opt (.el "properties" .properties)]
  | .energyProvider => .seqs [.opt (.el "description" .text), .el "organization" .organizationalEntity, .el "energySource" .text, .el "energyProvided" .co2Measure, .opt (.el "externalReferences" .externalReferences)]
  | .co2Measure => .seqs [.el "value" .text, .el "unit" .text]
  | .commandsCommand => .seqs [.opt (.el "executed" .text), .opt (.el "properties" .properties)]
  | .parameter => .seqs [.opt (.el "name" .text), .opt (.el "value" .text), .opt (.el "dataType" .text)]

/-- The elements in the content `xs` are as the content model says; `ok p x` says that `x` is as declared for
place `p`. -/
inductive Content.Matches (v : Int) (ok : XPlace → Xml → Prop) : Content → List Xml → Prop
  | empty : Matches v ok .empty []
  | el {n : String} {p : XPlace} {x : Xml} : x.isElem n = true → ok p x → Matches v ok (.el n p) [x]
  | seq {a b : Content} {l m : List Xml} : Matches v ok a l → Matches v ok b m → Matches v ok (.seq a b) (l ++ m)
  | left {a b : Content} {l : List Xml} : Matches v ok a l → Matches v ok (.choice a b) l
  | right {a b : Content} {l : List Xml} : Matches v ok b l → Matches v ok (.choice a b) l
  | optNone {a : Content} : Matches v ok (.opt a) []
  | optSome {a : Content} {l : List Xml} : Matches v ok a l → Matches v ok (.opt a) l
  | manyNil {a : Content} : Matches v ok (.many a) []
  | manyCons {a : Content} {l m : List Xml} :
    Matches v ok a l → Matches v ok (.many a) m → Matches v ok (.many a) (l ++ m)
  | some {a : Content} {l m : List Xml} :
    Matches v ok a l → Matches v ok (.many a) m → Matches v ok (.some a) (l ++ m)
  | old {w : Int} {a b : Content} {l : List Xml} : v < w → Matches v ok a l → Matches v ok (.switch w a b) l
  | new {w : Int} {a b : Content} {l : List Xml} : w ≤ v → Matches v ok b l → Matches v ok (.switch w a b) l

/-- The elements in a content. -/
def Xml.elements (ks : List Xml) : List Xml := ks.filter fun
  | .elem _ _ _ => true
  | .text _ => false

/-- Every attribute is declared, and every required one is there. -/
def AttrsValid (v : Int) (ds : List XAttr) (as : List (String × String)) : Prop :=
  (∀ a ∈ as, ∃ d ∈ ds, d.name = a.1 ∧ d.In v) ∧
    ∀ d ∈ ds, d.required = true → d.In v → ∃ a ∈ as, a.1 = d.name

/-- Where text may not be there is none but white space. -/
def TextValid (mixed : Bool) (ks : List Xml) : Prop :=
  mixed = true ∨ ∀ s, Xml.text s ∈ ks → ∀ c ∈ s.toList, c = ' ' ∨ c = '\t' ∨ c = '\n' ∨ c = '\r'

/-- The element is as the schema of version `v` declares it for this place, at any depth. -/
inductive XValid (v : Int) : XPlace → Xml → Prop
  | mk {p : XPlace} {name : String} {as : List (String × String)} {ks : List Xml} :
    AttrsValid v p.attrs as → TextValid p.mixed ks →
      Content.Matches v (XValid v) p.content (Xml.elements ks) → XValid v p (.elem name as ks)

/-- The namespace of the schema of a version (`targetNamespace`). -/
def schemaNamespace (v : Int) : Option String :=
  if v = SpecVersion1_0 then some "http://cyclonedx.org/schema/bom/1.0"
  else if v = SpecVersion1_1 then some "http://cyclonedx.org/schema/bom/1.1"
  else if v = SpecVersion1_2 then some "http://cyclonedx.org/schema/bom/1.2"
  else if v = SpecVersion1_3 then some "http://cyclonedx.org/schema/bom/1.3"
  else if v = SpecVersion1_4 then some "http://cyclonedx.org/schema/bom/1.4"
  else if v = SpecVersion1_5 then some "http://cyclonedx.org/schema/bom/1.5"
  else if v = SpecVersion1_6 then some "http://cyclonedx.org/schema/bom/1.6"
  else if v = SpecVersion1_7 then some "http://cyclonedx.org/schema/bom/1.7"
  else none

/-- The document is as the schema of version `v` declares it: the root element `bom` in the namespace of the
schema, with everything in it. -/
def XmlDoc.Valid (v : Int) (doc : XmlDoc) : Prop :=
  some doc.space = schemaNamespace v ∧ doc.root.isElem "bom" = true ∧ XValid v .bom doc.root

end Verif
