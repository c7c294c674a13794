import Verif.Xml.SpaceLaws

/-!
# White space between elements does not matter to any XML codec of the library

GENERATED by `tools/gen_xsafe.py`; do not edit by hand.
-/

namespace Verif

open Xml (sanitize trim textOf textKids Spaced SpacedL)

variable [XFloatIO]

set_option linter.unusedSectionVars false
set_option linter.unusedSimpArgs false
set_option linter.unusedVariables false
set_option synthInstance.maxSize 4000
set_option synthInstance.maxHeartbeats 400000

/-! ### Names -/

instance : OKName "abstract" := ⟨by decide +kernel⟩
instance : OKName "accessMode" := ⟨by decide +kernel⟩
instance : OKName "acknowledgement" := ⟨by decide +kernel⟩
instance : OKName "activationDate" := ⟨by decide +kernel⟩
instance : OKName "activity" := ⟨by decide +kernel⟩
instance : OKName "activityEnergyCost" := ⟨by decide +kernel⟩
instance : OKName "additionalContext" := ⟨by decide +kernel⟩
instance : OKName "address" := ⟨by decide +kernel⟩
instance : OKName "advisories" := ⟨by decide +kernel⟩
instance : OKName "advisory" := ⟨by decide +kernel⟩
instance : OKName "affects" := ⟨by decide +kernel⟩
instance : OKName "affirmation" := ⟨by decide +kernel⟩
instance : OKName "aggregate" := ⟨by decide +kernel⟩
instance : OKName "alg" := ⟨by decide +kernel⟩
instance : OKName "algorithm" := ⟨by decide +kernel⟩
instance : OKName "algorithmFamily" := ⟨by decide +kernel⟩
instance : OKName "algorithmProperties" := ⟨by decide +kernel⟩
instance : OKName "algorithmRef" := ⟨by decide +kernel⟩
instance : OKName "algorithms" := ⟨by decide +kernel⟩
instance : OKName "alias" := ⟨by decide +kernel⟩
instance : OKName "aliases" := ⟨by decide +kernel⟩
instance : OKName "altId" := ⟨by decide +kernel⟩
instance : OKName "altIds" := ⟨by decide +kernel⟩
instance : OKName "analysis" := ⟨by decide +kernel⟩
instance : OKName "ancestors" := ⟨by decide +kernel⟩
instance : OKName "annotation" := ⟨by decide +kernel⟩
instance : OKName "annotations" := ⟨by decide +kernel⟩
instance : OKName "annotator" := ⟨by decide +kernel⟩
instance : OKName "applicationNumber" := ⟨by decide +kernel⟩
instance : OKName "approach" := ⟨by decide +kernel⟩
instance : OKName "architectureFamily" := ⟨by decide +kernel⟩
instance : OKName "assemblies" := ⟨by decide +kernel⟩
instance : OKName "assembly" := ⟨by decide +kernel⟩
instance : OKName "asserter" := ⟨by decide +kernel⟩
instance : OKName "assertionType" := ⟨by decide +kernel⟩
instance : OKName "assessor" := ⟨by decide +kernel⟩
instance : OKName "assessors" := ⟨by decide +kernel⟩
instance : OKName "assetType" := ⟨by decide +kernel⟩
instance : OKName "attachment" := ⟨by decide +kernel⟩
instance : OKName "attestation" := ⟨by decide +kernel⟩
instance : OKName "attestations" := ⟨by decide +kernel⟩
instance : OKName "attributedTo" := ⟨by decide +kernel⟩
instance : OKName "auth" := ⟨by decide +kernel⟩
instance : OKName "authenticated" := ⟨by decide +kernel⟩
instance : OKName "author" := ⟨by decide +kernel⟩
instance : OKName "authors" := ⟨by decide +kernel⟩
instance : OKName "benefits" := ⟨by decide +kernel⟩
instance : OKName "bom" := ⟨by decide +kernel⟩
instance : OKName "bom-ref" := ⟨by decide +kernel⟩
instance : OKName "callstack" := ⟨by decide +kernel⟩
instance : OKName "certificateExtension" := ⟨by decide +kernel⟩
instance : OKName "certificateExtensions" := ⟨by decide +kernel⟩
instance : OKName "certificateFileExtension" := ⟨by decide +kernel⟩
instance : OKName "certificateFormat" := ⟨by decide +kernel⟩
instance : OKName "certificateProperties" := ⟨by decide +kernel⟩
instance : OKName "certificateState" := ⟨by decide +kernel⟩
instance : OKName "certificationLevel" := ⟨by decide +kernel⟩
instance : OKName "cipherSuites" := ⟨by decide +kernel⟩
instance : OKName "citation" := ⟨by decide +kernel⟩
instance : OKName "citations" := ⟨by decide +kernel⟩
instance : OKName "claim" := ⟨by decide +kernel⟩
instance : OKName "claims" := ⟨by decide +kernel⟩
instance : OKName "classicalSecurityLevel" := ⟨by decide +kernel⟩
instance : OKName "classification" := ⟨by decide +kernel⟩
instance : OKName "co2CostEquivalent" := ⟨by decide +kernel⟩
instance : OKName "co2CostOffset" := ⟨by decide +kernel⟩
instance : OKName "collection" := ⟨by decide +kernel⟩
instance : OKName "column" := ⟨by decide +kernel⟩
instance : OKName "command" := ⟨by decide +kernel⟩
instance : OKName "commands" := ⟨by decide +kernel⟩
instance : OKName "comment" := ⟨by decide +kernel⟩
instance : OKName "commit" := ⟨by decide +kernel⟩
instance : OKName "commits" := ⟨by decide +kernel⟩
instance : OKName "committer" := ⟨by decide +kernel⟩
instance : OKName "commonExtensionName" := ⟨by decide +kernel⟩
instance : OKName "commonExtensionValue" := ⟨by decide +kernel⟩
instance : OKName "component" := ⟨by decide +kernel⟩
instance : OKName "components" := ⟨by decide +kernel⟩
instance : OKName "composition" := ⟨by decide +kernel⟩
instance : OKName "compositions" := ⟨by decide +kernel⟩
instance : OKName "concludedValue" := ⟨by decide +kernel⟩
instance : OKName "condition" := ⟨by decide +kernel⟩
instance : OKName "conditions" := ⟨by decide +kernel⟩
instance : OKName "confidence" := ⟨by decide +kernel⟩
instance : OKName "confidenceInterval" := ⟨by decide +kernel⟩
instance : OKName "conformance" := ⟨by decide +kernel⟩
instance : OKName "considerations" := ⟨by decide +kernel⟩
instance : OKName "contact" := ⟨by decide +kernel⟩
instance : OKName "content-type" := ⟨by decide +kernel⟩
instance : OKName "contents" := ⟨by decide +kernel⟩
instance : OKName "copyright" := ⟨by decide +kernel⟩
instance : OKName "counterClaim" := ⟨by decide +kernel⟩
instance : OKName "counterClaims" := ⟨by decide +kernel⟩
instance : OKName "counterEvidence" := ⟨by decide +kernel⟩
instance : OKName "country" := ⟨by decide +kernel⟩
instance : OKName "cpe" := ⟨by decide +kernel⟩
instance : OKName "created" := ⟨by decide +kernel⟩
instance : OKName "creationDate" := ⟨by decide +kernel⟩
instance : OKName "credits" := ⟨by decide +kernel⟩
instance : OKName "cryptoFunction" := ⟨by decide +kernel⟩
instance : OKName "cryptoFunctions" := ⟨by decide +kernel⟩
instance : OKName "cryptoProperties" := ⟨by decide +kernel⟩
instance : OKName "cryptoRefArray" := ⟨by decide +kernel⟩
instance : OKName "curve" := ⟨by decide +kernel⟩
instance : OKName "custodian" := ⟨by decide +kernel⟩
instance : OKName "custodians" := ⟨by decide +kernel⟩
instance : OKName "customExtensionName" := ⟨by decide +kernel⟩
instance : OKName "customExtensionValue" := ⟨by decide +kernel⟩
instance : OKName "cwe" := ⟨by decide +kernel⟩
instance : OKName "cwes" := ⟨by decide +kernel⟩
instance : OKName "data" := ⟨by decide +kernel⟩
instance : OKName "dataType" := ⟨by decide +kernel⟩
instance : OKName "dataflow" := ⟨by decide +kernel⟩
instance : OKName "dataset" := ⟨by decide +kernel⟩
instance : OKName "datasets" := ⟨by decide +kernel⟩
instance : OKName "deactivationDate" := ⟨by decide +kernel⟩
instance : OKName "declarations" := ⟨by decide +kernel⟩
instance : OKName "definitions" := ⟨by decide +kernel⟩
instance : OKName "dependencies" := ⟨by decide +kernel⟩
instance : OKName "dependency" := ⟨by decide +kernel⟩
instance : OKName "descendants" := ⟨by decide +kernel⟩
instance : OKName "description" := ⟨by decide +kernel⟩
instance : OKName "descriptions" := ⟨by decide +kernel⟩
instance : OKName "destination" := ⟨by decide +kernel⟩
instance : OKName "destructionDate" := ⟨by decide +kernel⟩
instance : OKName "detail" := ⟨by decide +kernel⟩
instance : OKName "details" := ⟨by decide +kernel⟩
instance : OKName "diff" := ⟨by decide +kernel⟩
instance : OKName "distributionConstraints" := ⟨by decide +kernel⟩
instance : OKName "ellipticCurve" := ⟨by decide +kernel⟩
instance : OKName "email" := ⟨by decide +kernel⟩
instance : OKName "encoding" := ⟨by decide +kernel⟩
instance : OKName "encr" := ⟨by decide +kernel⟩
instance : OKName "endpoint" := ⟨by decide +kernel⟩
instance : OKName "endpoints" := ⟨by decide +kernel⟩
instance : OKName "energyConsumption" := ⟨by decide +kernel⟩
instance : OKName "energyConsumptions" := ⟨by decide +kernel⟩
instance : OKName "energyProvided" := ⟨by decide +kernel⟩
instance : OKName "energyProviders" := ⟨by decide +kernel⟩
instance : OKName "energySource" := ⟨by decide +kernel⟩
instance : OKName "environment" := ⟨by decide +kernel⟩
instance : OKName "environmentVar" := ⟨by decide +kernel⟩
instance : OKName "environmentVars" := ⟨by decide +kernel⟩
instance : OKName "environmentalConsiderations" := ⟨by decide +kernel⟩
instance : OKName "esn" := ⟨by decide +kernel⟩
instance : OKName "ethicalConsideration" := ⟨by decide +kernel⟩
instance : OKName "ethicalConsiderations" := ⟨by decide +kernel⟩
instance : OKName "event" := ⟨by decide +kernel⟩
instance : OKName "evidence" := ⟨by decide +kernel⟩
instance : OKName "executed" := ⟨by decide +kernel⟩
instance : OKName "executionEnvironment" := ⟨by decide +kernel⟩
instance : OKName "expiration" := ⟨by decide +kernel⟩
instance : OKName "expirationDate" := ⟨by decide +kernel⟩
instance : OKName "expires" := ⟨by decide +kernel⟩
instance : OKName "expression" := ⟨by decide +kernel⟩
instance : OKName "expression-detailed" := ⟨by decide +kernel⟩
instance : OKName "expressions" := ⟨by decide +kernel⟩
instance : OKName "externalReference" := ⟨by decide +kernel⟩
instance : OKName "externalReferences" := ⟨by decide +kernel⟩
instance : OKName "fairnessAssessment" := ⟨by decide +kernel⟩
instance : OKName "fairnessAssessments" := ⟨by decide +kernel⟩
instance : OKName "familyId" := ⟨by decide +kernel⟩
instance : OKName "featuredImage" := ⟨by decide +kernel⟩
instance : OKName "field" := ⟨by decide +kernel⟩
instance : OKName "filingDate" := ⟨by decide +kernel⟩
instance : OKName "fingerprint" := ⟨by decide +kernel⟩
instance : OKName "firstIssued" := ⟨by decide +kernel⟩
instance : OKName "flow" := ⟨by decide +kernel⟩
instance : OKName "format" := ⟨by decide +kernel⟩
instance : OKName "formula" := ⟨by decide +kernel⟩
instance : OKName "formulation" := ⟨by decide +kernel⟩
instance : OKName "frame" := ⟨by decide +kernel⟩
instance : OKName "frames" := ⟨by decide +kernel⟩
instance : OKName "fullFilename" := ⟨by decide +kernel⟩
instance : OKName "function" := ⟨by decide +kernel⟩
instance : OKName "governance" := ⟨by decide +kernel⟩
instance : OKName "grantDate" := ⟨by decide +kernel⟩
instance : OKName "graphic" := ⟨by decide +kernel⟩
instance : OKName "graphics" := ⟨by decide +kernel⟩
instance : OKName "group" := ⟨by decide +kernel⟩
instance : OKName "groupAtRisk" := ⟨by decide +kernel⟩
instance : OKName "harms" := ⟨by decide +kernel⟩
instance : OKName "hash" := ⟨by decide +kernel⟩
instance : OKName "hashes" := ⟨by decide +kernel⟩
instance : OKName "id" := ⟨by decide +kernel⟩
instance : OKName "identifier" := ⟨by decide +kernel⟩
instance : OKName "identifiers" := ⟨by decide +kernel⟩
instance : OKName "identity" := ⟨by decide +kernel⟩
instance : OKName "ikev2TransformTypes" := ⟨by decide +kernel⟩
instance : OKName "image" := ⟨by decide +kernel⟩
instance : OKName "implementationPlatform" := ⟨by decide +kernel⟩
instance : OKName "individual" := ⟨by decide +kernel⟩
instance : OKName "individuals" := ⟨by decide +kernel⟩
instance : OKName "input" := ⟨by decide +kernel⟩
instance : OKName "inputs" := ⟨by decide +kernel⟩
instance : OKName "integ" := ⟨by decide +kernel⟩
instance : OKName "isExternal" := ⟨by decide +kernel⟩
instance : OKName "issue" := ⟨by decide +kernel⟩
instance : OKName "issuerName" := ⟨by decide +kernel⟩
instance : OKName "jurisdiction" := ⟨by decide +kernel⟩
instance : OKName "justification" := ⟨by decide +kernel⟩
instance : OKName "ke" := ⟨by decide +kernel⟩
instance : OKName "keyLength" := ⟨by decide +kernel⟩
instance : OKName "lastRenewal" := ⟨by decide +kernel⟩
instance : OKName "lastUpdated" := ⟨by decide +kernel⟩
instance : OKName "level" := ⟨by decide +kernel⟩
instance : OKName "levels" := ⟨by decide +kernel⟩
instance : OKName "license" := ⟨by decide +kernel⟩
instance : OKName "license-identifier" := ⟨by decide +kernel⟩
instance : OKName "licenseType" := ⟨by decide +kernel⟩
instance : OKName "licenseTypes" := ⟨by decide +kernel⟩
instance : OKName "licensee" := ⟨by decide +kernel⟩
instance : OKName "licenses" := ⟨by decide +kernel⟩
instance : OKName "licensing" := ⟨by decide +kernel⟩
instance : OKName "licensor" := ⟨by decide +kernel⟩
instance : OKName "lifecycle" := ⟨by decide +kernel⟩
instance : OKName "lifecycles" := ⟨by decide +kernel⟩
instance : OKName "line" := ⟨by decide +kernel⟩
instance : OKName "locale" := ⟨by decide +kernel⟩
instance : OKName "locality" := ⟨by decide +kernel⟩
instance : OKName "location" := ⟨by decide +kernel⟩
instance : OKName "lowerBound" := ⟨by decide +kernel⟩
instance : OKName "managedDataType" := ⟨by decide +kernel⟩
instance : OKName "manufacture" := ⟨by decide +kernel⟩
instance : OKName "manufacturer" := ⟨by decide +kernel⟩
instance : OKName "map" := ⟨by decide +kernel⟩
instance : OKName "mechanism" := ⟨by decide +kernel⟩
instance : OKName "members" := ⟨by decide +kernel⟩
instance : OKName "message" := ⟨by decide +kernel⟩
instance : OKName "metadata" := ⟨by decide +kernel⟩
instance : OKName "method" := ⟨by decide +kernel⟩
instance : OKName "methods" := ⟨by decide +kernel⟩
instance : OKName "mime-type" := ⟨by decide +kernel⟩
instance : OKName "mitigationStrategies" := ⟨by decide +kernel⟩
instance : OKName "mitigationStrategy" := ⟨by decide +kernel⟩
instance : OKName "mode" := ⟨by decide +kernel⟩
instance : OKName "modelArchitecture" := ⟨by decide +kernel⟩
instance : OKName "modelCard" := ⟨by decide +kernel⟩
instance : OKName "modelParameters" := ⟨by decide +kernel⟩
instance : OKName "modified" := ⟨by decide +kernel⟩
instance : OKName "module" := ⟨by decide +kernel⟩
instance : OKName "mountPath" := ⟨by decide +kernel⟩
instance : OKName "name" := ⟨by decide +kernel⟩
instance : OKName "nistQuantumSecurityLevel" := ⟨by decide +kernel⟩
instance : OKName "notValidAfter" := ⟨by decide +kernel⟩
instance : OKName "notValidBefore" := ⟨by decide +kernel⟩
instance : OKName "note" := ⟨by decide +kernel⟩
instance : OKName "notes" := ⟨by decide +kernel⟩
instance : OKName "occurrence" := ⟨by decide +kernel⟩
instance : OKName "occurrences" := ⟨by decide +kernel⟩
instance : OKName "offset" := ⟨by decide +kernel⟩
instance : OKName "oid" := ⟨by decide +kernel⟩
instance : OKName "omniborId" := ⟨by decide +kernel⟩
instance : OKName "openCre" := ⟨by decide +kernel⟩
instance : OKName "organization" := ⟨by decide +kernel⟩
instance : OKName "organizations" := ⟨by decide +kernel⟩
instance : OKName "output" := ⟨by decide +kernel⟩
instance : OKName "outputs" := ⟨by decide +kernel⟩
instance : OKName "owner" := ⟨by decide +kernel⟩
instance : OKName "owners" := ⟨by decide +kernel⟩
instance : OKName "package" := ⟨by decide +kernel⟩
instance : OKName "padding" := ⟨by decide +kernel⟩
instance : OKName "parameter" := ⟨by decide +kernel⟩
instance : OKName "parameterSetIdentifier" := ⟨by decide +kernel⟩
instance : OKName "parameters" := ⟨by decide +kernel⟩
instance : OKName "parent" := ⟨by decide +kernel⟩
instance : OKName "patch" := ⟨by decide +kernel⟩
instance : OKName "patches" := ⟨by decide +kernel⟩
instance : OKName "patent" := ⟨by decide +kernel⟩
instance : OKName "patentAssertion" := ⟨by decide +kernel⟩
instance : OKName "patentAssertions" := ⟨by decide +kernel⟩
instance : OKName "patentAssignee" := ⟨by decide +kernel⟩
instance : OKName "patentExpirationDate" := ⟨by decide +kernel⟩
instance : OKName "patentFamily" := ⟨by decide +kernel⟩
instance : OKName "patentLegalStatus" := ⟨by decide +kernel⟩
instance : OKName "patentNumber" := ⟨by decide +kernel⟩
instance : OKName "patentRefs" := ⟨by decide +kernel⟩
instance : OKName "patents" := ⟨by decide +kernel⟩
instance : OKName "path" := ⟨by decide +kernel⟩
instance : OKName "pedigree" := ⟨by decide +kernel⟩
instance : OKName "performanceMetric" := ⟨by decide +kernel⟩
instance : OKName "performanceMetrics" := ⟨by decide +kernel⟩
instance : OKName "performanceTradeoff" := ⟨by decide +kernel⟩
instance : OKName "performanceTradeoffs" := ⟨by decide +kernel⟩
instance : OKName "persistent" := ⟨by decide +kernel⟩
instance : OKName "phase" := ⟨by decide +kernel⟩
instance : OKName "phone" := ⟨by decide +kernel⟩
instance : OKName "pointer" := ⟨by decide +kernel⟩
instance : OKName "pointers" := ⟨by decide +kernel⟩
instance : OKName "postOfficeBoxNumber" := ⟨by decide +kernel⟩
instance : OKName "postalCode" := ⟨by decide +kernel⟩
instance : OKName "predicate" := ⟨by decide +kernel⟩
instance : OKName "prf" := ⟨by decide +kernel⟩
instance : OKName "primitive" := ⟨by decide +kernel⟩
instance : OKName "priorityApplication" := ⟨by decide +kernel⟩
instance : OKName "process" := ⟨by decide +kernel⟩
instance : OKName "proofOfConcept" := ⟨by decide +kernel⟩
instance : OKName "properties" := ⟨by decide +kernel⟩
instance : OKName "property" := ⟨by decide +kernel⟩
instance : OKName "propertyName" := ⟨by decide +kernel⟩
instance : OKName "protocolProperties" := ⟨by decide +kernel⟩
instance : OKName "provider" := ⟨by decide +kernel⟩
instance : OKName "provides" := ⟨by decide +kernel⟩
instance : OKName "publicationNumber" := ⟨by decide +kernel⟩
instance : OKName "published" := ⟨by decide +kernel⟩
instance : OKName "publisher" := ⟨by decide +kernel⟩
instance : OKName "purchaseOrder" := ⟨by decide +kernel⟩
instance : OKName "purchaser" := ⟨by decide +kernel⟩
instance : OKName "purl" := ⟨by decide +kernel⟩
instance : OKName "quantitativeAnalysis" := ⟨by decide +kernel⟩
instance : OKName "range" := ⟨by decide +kernel⟩
instance : OKName "rating" := ⟨by decide +kernel⟩
instance : OKName "ratings" := ⟨by decide +kernel⟩
instance : OKName "rationale" := ⟨by decide +kernel⟩
instance : OKName "reason" := ⟨by decide +kernel⟩
instance : OKName "reasoning" := ⟨by decide +kernel⟩
instance : OKName "recommendation" := ⟨by decide +kernel⟩
instance : OKName "ref" := ⟨by decide +kernel⟩
instance : OKName "reference" := ⟨by decide +kernel⟩
instance : OKName "references" := ⟨by decide +kernel⟩
instance : OKName "region" := ⟨by decide +kernel⟩
instance : OKName "rejected" := ⟨by decide +kernel⟩
instance : OKName "relatedCryptoMaterialProperties" := ⟨by decide +kernel⟩
instance : OKName "relatedCryptographicAsset" := ⟨by decide +kernel⟩
instance : OKName "relatedCryptographicAssets" := ⟨by decide +kernel⟩
instance : OKName "releaseNotes" := ⟨by decide +kernel⟩
instance : OKName "remote" := ⟨by decide +kernel⟩
instance : OKName "reproductionSteps" := ⟨by decide +kernel⟩
instance : OKName "requirement" := ⟨by decide +kernel⟩
instance : OKName "requirements" := ⟨by decide +kernel⟩
instance : OKName "resolves" := ⟨by decide +kernel⟩
instance : OKName "resource" := ⟨by decide +kernel⟩
instance : OKName "resourceReference" := ⟨by decide +kernel⟩
instance : OKName "resourceReferences" := ⟨by decide +kernel⟩
instance : OKName "response" := ⟨by decide +kernel⟩
instance : OKName "responses" := ⟨by decide +kernel⟩
instance : OKName "reviewer" := ⟨by decide +kernel⟩
instance : OKName "revocationDate" := ⟨by decide +kernel⟩
instance : OKName "role" := ⟨by decide +kernel⟩
instance : OKName "runtimeTopology" := ⟨by decide +kernel⟩
instance : OKName "scope" := ⟨by decide +kernel⟩
instance : OKName "score" := ⟨by decide +kernel⟩
instance : OKName "securedBy" := ⟨by decide +kernel⟩
instance : OKName "sensitiveData" := ⟨by decide +kernel⟩
instance : OKName "serialNumber" := ⟨by decide +kernel⟩
instance : OKName "service" := ⟨by decide +kernel⟩
instance : OKName "services" := ⟨by decide +kernel⟩
instance : OKName "severity" := ⟨by decide +kernel⟩
instance : OKName "signatories" := ⟨by decide +kernel⟩
instance : OKName "signatory" := ⟨by decide +kernel⟩
instance : OKName "signatureAlgorithmRef" := ⟨by decide +kernel⟩
instance : OKName "signatureScheme" := ⟨by decide +kernel⟩
instance : OKName "size" := ⟨by decide +kernel⟩
instance : OKName "sizeAllocated" := ⟨by decide +kernel⟩
instance : OKName "slice" := ⟨by decide +kernel⟩
instance : OKName "socialImage" := ⟨by decide +kernel⟩
instance : OKName "source" := ⟨by decide +kernel⟩
instance : OKName "standard" := ⟨by decide +kernel⟩
instance : OKName "standards" := ⟨by decide +kernel⟩
instance : OKName "state" := ⟨by decide +kernel⟩
instance : OKName "statement" := ⟨by decide +kernel⟩
instance : OKName "status" := ⟨by decide +kernel⟩
instance : OKName "step" := ⟨by decide +kernel⟩
instance : OKName "steps" := ⟨by decide +kernel⟩
instance : OKName "steward" := ⟨by decide +kernel⟩
instance : OKName "stewards" := ⟨by decide +kernel⟩
instance : OKName "streetAddress" := ⟨by decide +kernel⟩
instance : OKName "subject" := ⟨by decide +kernel⟩
instance : OKName "subjectName" := ⟨by decide +kernel⟩
instance : OKName "subjectPublicKeyRef" := ⟨by decide +kernel⟩
instance : OKName "subjects" := ⟨by decide +kernel⟩
instance : OKName "summary" := ⟨by decide +kernel⟩
instance : OKName "supplier" := ⟨by decide +kernel⟩
instance : OKName "supportingMaterial" := ⟨by decide +kernel⟩
instance : OKName "swhid" := ⟨by decide +kernel⟩
instance : OKName "swid" := ⟨by decide +kernel⟩
instance : OKName "symbol" := ⟨by decide +kernel⟩
instance : OKName "tag" := ⟨by decide +kernel⟩
instance : OKName "tagId" := ⟨by decide +kernel⟩
instance : OKName "tagVersion" := ⟨by decide +kernel⟩
instance : OKName "tags" := ⟨by decide +kernel⟩
instance : OKName "target" := ⟨by decide +kernel⟩
instance : OKName "targets" := ⟨by decide +kernel⟩
instance : OKName "task" := ⟨by decide +kernel⟩
instance : OKName "taskDependencies" := ⟨by decide +kernel⟩
instance : OKName "taskType" := ⟨by decide +kernel⟩
instance : OKName "taskTypes" := ⟨by decide +kernel⟩
instance : OKName "tasks" := ⟨by decide +kernel⟩
instance : OKName "technicalLimitation" := ⟨by decide +kernel⟩
instance : OKName "technicalLimitations" := ⟨by decide +kernel⟩
instance : OKName "technique" := ⟨by decide +kernel⟩
instance : OKName "text" := ⟨by decide +kernel⟩
instance : OKName "thirdParty" := ⟨by decide +kernel⟩
instance : OKName "timeActivated" := ⟨by decide +kernel⟩
instance : OKName "timeEnd" := ⟨by decide +kernel⟩
instance : OKName "timeReceived" := ⟨by decide +kernel⟩
instance : OKName "timeStart" := ⟨by decide +kernel⟩
instance : OKName "timestamp" := ⟨by decide +kernel⟩
instance : OKName "title" := ⟨by decide +kernel⟩
instance : OKName "tlp" := ⟨by decide +kernel⟩
instance : OKName "tlsGroups" := ⟨by decide +kernel⟩
instance : OKName "tlsSignatureSchemes" := ⟨by decide +kernel⟩
instance : OKName "tool" := ⟨by decide +kernel⟩
instance : OKName "tools" := ⟨by decide +kernel⟩
instance : OKName "trigger" := ⟨by decide +kernel⟩
instance : OKName "trustZone" := ⟨by decide +kernel⟩
instance : OKName "type" := ⟨by decide +kernel⟩
instance : OKName "uid" := ⟨by decide +kernel⟩
instance : OKName "unit" := ⟨by decide +kernel⟩
instance : OKName "updateDate" := ⟨by decide +kernel⟩
instance : OKName "updated" := ⟨by decide +kernel⟩
instance : OKName "upperBound" := ⟨by decide +kernel⟩
instance : OKName "url" := ⟨by decide +kernel⟩
instance : OKName "useCase" := ⟨by decide +kernel⟩
instance : OKName "useCases" := ⟨by decide +kernel⟩
instance : OKName "user" := ⟨by decide +kernel⟩
instance : OKName "users" := ⟨by decide +kernel⟩
instance : OKName "value" := ⟨by decide +kernel⟩
instance : OKName "variants" := ⟨by decide +kernel⟩
instance : OKName "vector" := ⟨by decide +kernel⟩
instance : OKName "vendor" := ⟨by decide +kernel⟩
instance : OKName "version" := ⟨by decide +kernel⟩
instance : OKName "versionRange" := ⟨by decide +kernel⟩
instance : OKName "versions" := ⟨by decide +kernel⟩
instance : OKName "volume" := ⟨by decide +kernel⟩
instance : OKName "volumeRequest" := ⟨by decide +kernel⟩
instance : OKName "vulnerabilities" := ⟨by decide +kernel⟩
instance : OKName "vulnerability" := ⟨by decide +kernel⟩
instance : OKName "workaround" := ⟨by decide +kernel⟩
instance : OKName "workflow" := ⟨by decide +kernel⟩
instance : OKName "workflows" := ⟨by decide +kernel⟩
instance : OKName "workspace" := ⟨by decide +kernel⟩
instance : OKName "workspaces" := ⟨by decide +kernel⟩
instance : OKName "x-trust-boundary" := ⟨by decide +kernel⟩
instance : OKName "xmlns" := ⟨by decide +kernel⟩

instance : XFieldsSafe X.bomReferenceFields := by unfold X.bomReferenceFields; infer_instance
instance : XSafe X.bomReference :=
  safe_empty (fresh_safe (xstruct_safe X.bomReferenceFields _ _ (show (["ref"] : List String).Nodup by decide +kernel) List.nodup_nil (.inl rfl))) _
instance : XSafe X.dependencyRef := xstruct_safe X.bomReferenceFields _ _ (show (["ref"] : List String).Nodup by decide +kernel) List.nodup_nil (.inl rfl)

instance : XFieldsSafe X.advisoryFields := by unfold X.advisoryFields; infer_instance
instance : XSafe X.advisory :=
  xstruct_safe X.advisoryFields _ _ List.nodup_nil
    (show (["title", "url"] : List String).Nodup by decide +kernel) (.inl rfl)

instance : XFieldsSafe X.affectedVersionsFields := by unfold X.affectedVersionsFields; infer_instance
instance : XSafe X.affectedVersions :=
  xstruct_safe X.affectedVersionsFields _ _ List.nodup_nil
    (show (["version", "range", "status"] : List String).Nodup by decide +kernel) (.inl rfl)

instance : XFieldsSafe X.affectsFields := by unfold X.affectsFields; infer_instance
instance : XSafe X.affects :=
  xstruct_safe X.affectsFields _ _ List.nodup_nil
    (show (["ref", "versions"] : List String).Nodup by decide +kernel) (.inl rfl)

instance : XFieldsSafe X.attachedTextFields := by unfold X.attachedTextFields; infer_instance
instance : XSafe X.attachedText :=
  xstruct_safe X.attachedTextFields _ _ (show (["content-type", "encoding"] : List String).Nodup by decide +kernel)
    List.nodup_nil (.inr ⟨rfl, Nat.le_refl 1⟩)

instance : XFieldsSafe X.propertyFields := by unfold X.propertyFields; infer_instance
instance : XSafe X.property :=
  xstruct_safe X.propertyFields _ _ (show (["name"] : List String).Nodup by decide +kernel)
    List.nodup_nil (.inr ⟨rfl, Nat.le_refl 1⟩)

instance : XFieldsSafe X.componentDataContentsFields := by unfold X.componentDataContentsFields; infer_instance
instance : XSafe X.componentDataContents :=
  xstruct_safe X.componentDataContentsFields _ _ List.nodup_nil
    (show (["attachment", "url", "properties"] : List String).Nodup by decide +kernel) (.inl rfl)

instance : XFieldsSafe X.componentDataGraphicFields := by unfold X.componentDataGraphicFields; infer_instance
instance : XSafe X.componentDataGraphic :=
  xstruct_safe X.componentDataGraphicFields _ _ List.nodup_nil
    (show (["name", "image"] : List String).Nodup by decide +kernel) (.inl rfl)

instance : XFieldsSafe X.componentDataGraphicsFields := by unfold X.componentDataGraphicsFields; infer_instance
instance : XSafe X.componentDataGraphics :=
  xstruct_safe X.componentDataGraphicsFields _ _ List.nodup_nil
    (show (["description", "collection"] : List String).Nodup by decide +kernel) (.inl rfl)

instance : XFieldsSafe X.organizationalContactFields := by unfold X.organizationalContactFields; infer_instance
instance : XSafe X.organizationalContact :=
  xstruct_safe X.organizationalContactFields _ _ (show (["bom-ref"] : List String).Nodup by decide +kernel)
    (show (["name", "email", "phone"] : List String).Nodup by decide +kernel) (.inl rfl)

instance : XFieldsSafe X.postalAddressFields := by unfold X.postalAddressFields; infer_instance
instance : XSafe X.postalAddress :=
  xstruct_safe X.postalAddressFields _ _ (show (["bom-ref"] : List String).Nodup by decide +kernel)
    (show (["country", "region", "locality", "postOfficeBoxNumber", "postalCode", "streetAddress"] : List String).Nodup by decide +kernel) (.inl rfl)

instance : XFieldsSafe X.organizationalEntityFields := by unfold X.organizationalEntityFields; infer_instance
instance : XSafe X.organizationalEntity :=
  xstruct_safe X.organizationalEntityFields _ _ (show (["bom-ref"] : List String).Nodup by decide +kernel)
    (show (["name", "address", "url", "contact"] : List String).Nodup by decide +kernel) (.inl rfl)

instance : XFieldsSafe X.componentDataGovernanceResponsiblePartyFields := by unfold X.componentDataGovernanceResponsiblePartyFields; infer_instance
instance : XSafe X.componentDataGovernanceResponsibleParty :=
  xstruct_safe X.componentDataGovernanceResponsiblePartyFields _ _ List.nodup_nil
    (show (["organization", "contact"] : List String).Nodup by decide +kernel) (.inl rfl)

instance : XFieldsSafe X.dataGovernanceFields := by unfold X.dataGovernanceFields; infer_instance
instance : XSafe X.dataGovernance :=
  xstruct_safe X.dataGovernanceFields _ _ List.nodup_nil
    (show (["custodians", "stewards", "owners"] : List String).Nodup by decide +kernel) (.inl rfl)

instance : XFieldsSafe X.componentDataFields := by unfold X.componentDataFields; infer_instance
instance : XSafe X.componentData :=
  xstruct_safe X.componentDataFields _ _ (show (["bom-ref"] : List String).Nodup by decide +kernel)
    (show (["type", "name", "contents", "classification", "sensitiveData", "graphics", "description", "governance"] : List String).Nodup by decide +kernel) (.inl rfl)

instance : XFieldsSafe X.hashFields := by unfold X.hashFields; infer_instance
instance : XSafe X.hash :=
  xstruct_safe X.hashFields _ _ (show (["alg"] : List String).Nodup by decide +kernel)
    List.nodup_nil (.inr ⟨rfl, Nat.le_refl 1⟩)

instance : XFieldsSafe X.relatedCryptographicAssetFields := by unfold X.relatedCryptographicAssetFields; infer_instance
instance : XSafe X.relatedCryptographicAsset :=
  xstruct_safe X.relatedCryptographicAssetFields _ _ List.nodup_nil
    (show (["type", "ref"] : List String).Nodup by decide +kernel) (.inl rfl)

instance : XSafe X.predefinedCertificateState := by
  unfold X.predefinedCertificateState
  exact xstruct_safe _ _ _ List.nodup_nil (show (["state", "reason"] : List String).Nodup by decide +kernel) (.inl rfl)
instance : XSafe X.customCertificateState := by
  unfold X.customCertificateState
  exact xstruct_safe _ _ _ List.nodup_nil (show (["name", "description", "reason"] : List String).Nodup by decide +kernel) (.inl rfl)

instance : XSafe X.certificateState where
  safe n cs x h y hy old := by
    have ht : ∀ k ∈ x.kids, HoldsText k := by
      obtain ⟨_ | p, _ | c⟩ := cs
      · simp [X.certificateState] at h
      · simp only [X.certificateState, X.customCertificateState, XCodec.struct, Option.map_eq_some_iff, Option.some.injEq] at h
        obtain ⟨ks, hk, rfl⟩ := h
        obtain ⟨k₁, k₂, h₁, g₂, rfl⟩ := encKids_elem hk
        obtain ⟨k₂, k₃, h₂, g₃, rfl⟩ := encKids_elem g₂
        obtain ⟨k₃, k₄, h₃, g₄, rfl⟩ := encKids_elem g₃
        simp only [XFields.encKids, Option.some.injEq] at g₄; subst g₄
        exact holdsText_append (plain_holdsText h₁) (holdsText_append (plain_holdsText h₂)
          (holdsText_append (plain_holdsText h₃) (by simp)))
      · simp only [X.certificateState, X.predefinedCertificateState, XCodec.struct, Option.map_eq_some_iff, Option.some.injEq] at h
        obtain ⟨ks, hk, rfl⟩ := h
        obtain ⟨k₁, k₂, h₁, g₂, rfl⟩ := encKids_elem hk
        obtain ⟨k₂, k₃, h₂, g₃, rfl⟩ := encKids_elem g₂
        simp only [XFields.encKids, Option.some.injEq] at g₃; subst g₃
        exact holdsText_append (plain_holdsText h₁) (holdsText_append (plain_holdsText h₂) (by simp))
      · simp [X.certificateState] at h
    simp only [X.certificateState, dec_holdsText X.certificateStateRaw rfl hy ht]
  tidy n cs x hn h := by
    obtain ⟨_ | p, _ | c⟩ := cs
    · simp [X.certificateState] at h
    · exact XSafe.tidy (c := X.customCertificateState) n c x hn h
    · exact XSafe.tidy (c := X.predefinedCertificateState) n p x hn h
    · simp [X.certificateState] at h

instance : XSafe X.commonCertificateExtension := by
  unfold X.commonCertificateExtension
  exact xstruct_safe _ _ _ List.nodup_nil (show (["commonExtensionName", "commonExtensionValue"] : List String).Nodup by decide +kernel) (.inl rfl)
instance : XSafe X.customCertificateExtension := by
  unfold X.customCertificateExtension
  exact xstruct_safe _ _ _ List.nodup_nil (show (["customExtensionName", "customExtensionValue"] : List String).Nodup by decide +kernel) (.inl rfl)

instance : XSafe X.certificateExtension where
  safe n ce x h y hy old := by
    have ht : ∀ k ∈ x.kids, HoldsText k := by
      obtain ⟨_ | p, _ | c⟩ := ce
      · simp [X.certificateExtension] at h
      · simp only [X.certificateExtension, X.customCertificateExtension, XCodec.struct, Option.map_eq_some_iff, Option.some.injEq] at h
        obtain ⟨ks, hk, rfl⟩ := h
        obtain ⟨k₁, k₂, h₁, g₂, rfl⟩ := encKids_elem hk
        obtain ⟨k₂, k₃, h₂, g₃, rfl⟩ := encKids_elem g₂
        simp only [XFields.encKids, Option.some.injEq] at g₃; subst g₃
        exact holdsText_append (plain_holdsText h₁) (holdsText_append (plain_holdsText h₂) (by simp))
      · simp only [X.certificateExtension, X.commonCertificateExtension, XCodec.struct, Option.map_eq_some_iff, Option.some.injEq] at h
        obtain ⟨ks, hk, rfl⟩ := h
        obtain ⟨k₁, k₂, h₁, g₂, rfl⟩ := encKids_elem hk
        obtain ⟨k₂, k₃, h₂, g₃, rfl⟩ := encKids_elem g₂
        simp only [XFields.encKids, Option.some.injEq] at g₃; subst g₃
        exact holdsText_append (plain_holdsText h₁) (holdsText_append (plain_holdsText h₂) (by simp))
      · simp [X.certificateExtension] at h
    simp only [X.certificateExtension, dec_holdsText X.certificateExtensionRaw rfl hy ht]
  tidy n ce x hn h := by
    obtain ⟨_ | p, _ | c⟩ := ce
    · simp [X.certificateExtension] at h
    · exact XSafe.tidy (c := X.customCertificateExtension) n c x hn h
    · exact XSafe.tidy (c := X.commonCertificateExtension) n p x hn h
    · simp [X.certificateExtension] at h

instance : XFieldsSafe X.certificatePropertiesFields := by unfold X.certificatePropertiesFields; infer_instance
instance : XSafe X.certificateProperties :=
  xstruct_safe X.certificatePropertiesFields _ _ List.nodup_nil
    (show (["serialNumber", "subjectName", "issuerName", "notValidBefore", "notValidAfter", "signatureAlgorithmRef", "subjectPublicKeyRef", "certificateFormat", "certificateExtension", "certificateFileExtension", "fingerprint", "certificateState", "certificateExtensions", "relatedCryptographicAssets", "creationDate", "activationDate", "deactivationDate", "revocationDate", "destructionDate"] : List String).Nodup by decide +kernel) (.inl rfl)

instance : XFieldsSafe X.cryptoAlgorithmPropertiesFields := by unfold X.cryptoAlgorithmPropertiesFields; infer_instance
instance : XSafe X.cryptoAlgorithmProperties :=
  xstruct_safe X.cryptoAlgorithmPropertiesFields _ _ List.nodup_nil
    (show (["primitive", "parameterSetIdentifier", "algorithmFamily", "curve", "ellipticCurve", "executionEnvironment", "implementationPlatform", "certificationLevel", "mode", "padding", "cryptoFunctions", "classicalSecurityLevel", "nistQuantumSecurityLevel"] : List String).Nodup by decide +kernel) (.inl rfl)

instance : XFieldsSafe X.cipherSuiteFields := by unfold X.cipherSuiteFields; infer_instance
instance : XSafe X.cipherSuite :=
  xstruct_safe X.cipherSuiteFields _ _ List.nodup_nil
    (show (["name", "algorithms", "identifiers", "tlsGroups", "tlsSignatureSchemes"] : List String).Nodup by decide +kernel) (.inl rfl)

instance : XFieldsSafe X.ikev2AuthFields := by unfold X.ikev2AuthFields; infer_instance
instance : XSafe X.ikev2Auth := xikev2_safe X.ikev2AuthFields _ _ _ List.nodup_nil (show (["name", "algorithm"] : List String).Nodup by decide +kernel) rfl

instance : XFieldsSafe X.ikev2EncFields := by unfold X.ikev2EncFields; infer_instance
instance : XSafe X.ikev2Enc := xikev2_safe X.ikev2EncFields _ _ _ List.nodup_nil (show (["name", "keyLength", "algorithm"] : List String).Nodup by decide +kernel) rfl

instance : XFieldsSafe X.ikev2IntegFields := by unfold X.ikev2IntegFields; infer_instance
instance : XSafe X.ikev2Integ := xikev2_safe X.ikev2IntegFields _ _ _ List.nodup_nil (show (["name", "algorithm"] : List String).Nodup by decide +kernel) rfl

instance : XFieldsSafe X.ikev2KeFields := by unfold X.ikev2KeFields; infer_instance
instance : XSafe X.ikev2Ke := xikev2_safe X.ikev2KeFields _ _ _ List.nodup_nil (show (["group", "algorithm"] : List String).Nodup by decide +kernel) rfl

instance : XFieldsSafe X.ikev2PrfFields := by unfold X.ikev2PrfFields; infer_instance
instance : XSafe X.ikev2Prf := xikev2_safe X.ikev2PrfFields _ _ _ List.nodup_nil (show (["name", "algorithm"] : List String).Nodup by decide +kernel) rfl

instance : XFieldsSafe X.ikev2TransformTypesFields := by unfold X.ikev2TransformTypesFields; infer_instance
instance : XSafe X.ikev2TransformTypes :=
  xstruct_safe X.ikev2TransformTypesFields _ _ List.nodup_nil
    (show (["encr", "prf", "integ", "ke", "esn", "auth"] : List String).Nodup by decide +kernel) (.inl rfl)

instance : XFieldsSafe X.cryptoProtocolPropertiesFields := by unfold X.cryptoProtocolPropertiesFields; infer_instance
instance : XSafe X.cryptoProtocolProperties :=
  xstruct_safe X.cryptoProtocolPropertiesFields _ _ List.nodup_nil
    (show (["type", "version", "cipherSuites", "ikev2TransformTypes", "cryptoRefArray", "relatedCryptographicAssets"] : List String).Nodup by decide +kernel) (.inl rfl)

instance : XFieldsSafe X.securedByFields := by unfold X.securedByFields; infer_instance
instance : XSafe X.securedBy :=
  xstruct_safe X.securedByFields _ _ List.nodup_nil
    (show (["mechanism", "algorithmRef"] : List String).Nodup by decide +kernel) (.inl rfl)

instance : XFieldsSafe X.relatedCryptoMaterialPropertiesFields := by unfold X.relatedCryptoMaterialPropertiesFields; infer_instance
instance : XSafe X.relatedCryptoMaterialProperties :=
  xstruct_safe X.relatedCryptoMaterialPropertiesFields _ _ List.nodup_nil
    (show (["type", "id", "state", "algorithmRef", "creationDate", "activationDate", "updateDate", "expirationDate", "value", "size", "format", "securedBy", "fingerprint", "relatedCryptographicAssets"] : List String).Nodup by decide +kernel) (.inl rfl)

instance : XFieldsSafe X.cryptoPropertiesFields := by unfold X.cryptoPropertiesFields; infer_instance
instance : XSafe X.cryptoProperties :=
  xstruct_safe X.cryptoPropertiesFields _ _ List.nodup_nil
    (show (["assetType", "algorithmProperties", "certificateProperties", "relatedCryptoMaterialProperties", "protocolProperties", "oid"] : List String).Nodup by decide +kernel) (.inl rfl)

instance : XFieldsSafe X.callstackFrameFields := by unfold X.callstackFrameFields; infer_instance
instance : XSafe X.callstackFrame :=
  xstruct_safe X.callstackFrameFields _ _ List.nodup_nil
    (show (["package", "module", "function", "parameters", "line", "column", "fullFilename"] : List String).Nodup by decide +kernel) (.inl rfl)

instance : XFieldsSafe X.callstackFields := by unfold X.callstackFields; infer_instance
instance : XSafe X.callstack :=
  xstruct_safe X.callstackFields _ _ List.nodup_nil
    (show (["frames"] : List String).Nodup by decide +kernel) (.inl rfl)

instance : XSafe X.copyright where
  safe n a x h y hy old := by simp only [X.copyright, XSafe.safe (c := X.string) n a.text x h y hy]
  tidy n a x hn h := XSafe.tidy (c := X.string) n a.text x hn h

instance : XFieldsSafe X.evidenceIdentityMethodFields := by unfold X.evidenceIdentityMethodFields; infer_instance
instance : XSafe X.evidenceIdentityMethod :=
  xstruct_safe X.evidenceIdentityMethodFields _ _ List.nodup_nil
    (show (["technique", "confidence", "value"] : List String).Nodup by decide +kernel) (.inl rfl)

instance : XFieldsSafe X.evidenceIdentityFields := by unfold X.evidenceIdentityFields; infer_instance
instance : XSafe X.evidenceIdentity :=
  xstruct_safe X.evidenceIdentityFields _ _ List.nodup_nil
    (show (["field", "confidence", "concludedValue", "methods", "tools"] : List String).Nodup by decide +kernel) (.inl rfl)

instance : XFieldsSafe X.evidenceOccurrenceFields := by unfold X.evidenceOccurrenceFields; infer_instance
instance : XSafe X.evidenceOccurrence :=
  xstruct_safe X.evidenceOccurrenceFields _ _ (show (["bom-ref", "line", "offset", "symbol", "additionalContext"] : List String).Nodup by decide +kernel)
    (show (["location"] : List String).Nodup by decide +kernel) (.inl rfl)

instance : XFieldsSafe X.organizationalEntityOrContactFields := by unfold X.organizationalEntityOrContactFields; infer_instance
instance : XSafe X.organizationalEntityOrContact :=
  xstruct_safe X.organizationalEntityOrContactFields _ _ List.nodup_nil
    (show (["organization", "individual"] : List String).Nodup by decide +kernel) (.inl rfl)

instance : XFieldsSafe X.licensingFields := by unfold X.licensingFields; infer_instance
instance : XSafe X.licensing :=
  xstruct_safe X.licensingFields _ _ List.nodup_nil
    (show (["altIds", "licensor", "licensee", "purchaser", "purchaseOrder", "licenseTypes", "lastRenewal", "expiration"] : List String).Nodup by decide +kernel) (.inl rfl)

instance : XFieldsSafe X.licenseFields := by unfold X.licenseFields; infer_instance
instance : XSafe X.licenseAlias :=
  xstruct_safe X.licenseFields _ _ (show (["bom-ref", "acknowledgement"] : List String).Nodup by decide +kernel)
    (show (["id", "name", "text", "url", "licensing", "properties"] : List String).Nodup by decide +kernel) (.inl rfl)

instance : XSafe X.license where
  safe n l x h y hy old := by
    simp only [X.license] at h
    split at h
    · cases h
    · split at h
      · cases h
      · exact XSafe.safe (c := X.licenseAlias) n l x h y hy old
  tidy n l x hn h := by
    simp only [X.license] at h
    split at h
    · cases h
    · split at h
      · cases h
      · exact XSafe.tidy (c := X.licenseAlias) n l x hn h

instance : XFieldsSafe X.licenseExpressionDetailFields := by unfold X.licenseExpressionDetailFields; infer_instance
instance : XSafe X.licenseExpressionDetail :=
  xstruct_safe X.licenseExpressionDetailFields _ _ (by simp [X.licenseExpressionDetailFields, XFields.attrNames]) (show (["text", "url"] : List String).Nodup by decide +kernel) (.inl rfl)
instance : XFieldsSafe X.licenseExpressionFields := by unfold X.licenseExpressionFields; infer_instance
instance : XFieldsSafe X.licenseExpressionDetailedFields := by unfold X.licenseExpressionDetailedFields; infer_instance

theorem licenseExpression_safe : XSafe (XCodec.struct X.licenseExpressionFields id id) :=
  xstruct_safe X.licenseExpressionFields _ _ (show (["acknowledgement", "bom-ref"] : List String).Nodup by decide +kernel) List.nodup_nil (.inr ⟨rfl, Nat.le_refl 1⟩)

theorem licenseExpressionDetailed_safe : XSafe (XCodec.struct X.licenseExpressionDetailedFields id id) :=
  xstruct_safe X.licenseExpressionDetailedFields _ _ (show (["expression", "acknowledgement", "bom-ref"] : List String).Nodup by decide +kernel)
    (show (["details"] : List String).Nodup by decide +kernel) (.inl rfl)

theorem licenseChoice_safe {c : LicenseChoice} {ks : List Xml} (h : X.licenseChoiceEnc c = some ks) :
    ∀ k ∈ ks, (∃ n as ls, k = .elem n as ls) ∧ k.Tidy ∧ ∀ l, Spaced k l → X.licenseChoiceDec l = X.licenseChoiceDec k := by
  intro k hk
  simp only [X.licenseChoiceEnc] at h
  split at h
  · rename_i l hl
    split at h
    · cases h
    · have e := XField.enc_mem h k hk
      have hn := XLawful.named "license" l k e
      obtain ⟨as, js, rfl⟩ := Xml.isElem_elim hn
      refine ⟨⟨_, _, _, rfl⟩, XSafe.tidy "license" l _ inferInstance e, fun y hy => ?_⟩
      have hd := XSafe.safe "license" l _ e y hy
      obtain ⟨js', rfl, -⟩ := spaced_elem.1 hy
      have e0 : X.license.rename "license" = "license" := rfl
      rw [e0] at hd ⊢
      simp [X.licenseChoiceDec, hd]
  · split at h
    · split at h
      · have e := XField.enc_mem h k hk
        have hn := licenseExpression_lawful.named "expression" _ k e
        obtain ⟨as, js, rfl⟩ := Xml.isElem_elim hn
        refine ⟨⟨_, _, _, rfl⟩, licenseExpression_safe.tidy "expression" _ _ inferInstance e, fun y hy => ?_⟩
        have hd := licenseExpression_safe.safe "expression" _ _ e y hy X.licenseExpressionFields.zero
        obtain ⟨js', rfl, -⟩ := spaced_elem.1 hy
        have e0 : (XCodec.struct X.licenseExpressionFields id id).rename "expression" = "expression" := rfl
        rw [e0] at hd ⊢
        have hd' : X.licenseExpressionFields.dec (.elem "expression" as js') X.licenseExpressionFields.zero =
            X.licenseExpressionFields.dec (.elem "expression" as js) X.licenseExpressionFields.zero := by
          simpa [XCodec.struct] using hd
        simp [X.licenseChoiceDec, hd']
      · have e := XField.enc_mem h k hk
        have hn := licenseExpressionDetailed_lawful.named "expression-detailed" _ k e
        obtain ⟨as, js, rfl⟩ := Xml.isElem_elim hn
        refine ⟨⟨_, _, _, rfl⟩, licenseExpressionDetailed_safe.tidy "expression-detailed" _ _ inferInstance e,
          fun y hy => ?_⟩
        have hd := licenseExpressionDetailed_safe.safe "expression-detailed" _ _ e y hy X.licenseExpressionDetailedFields.zero
        obtain ⟨js', rfl, -⟩ := spaced_elem.1 hy
        have e0 : (XCodec.struct X.licenseExpressionDetailedFields id id).rename "expression-detailed" =
          "expression-detailed" := rfl
        rw [e0] at hd ⊢
        have hd' : X.licenseExpressionDetailedFields.dec (.elem "expression-detailed" as js')
              X.licenseExpressionDetailedFields.zero =
            X.licenseExpressionDetailedFields.dec (.elem "expression-detailed" as js)
              X.licenseExpressionDetailedFields.zero := by
          simpa [XCodec.struct] using hd
        simp [X.licenseChoiceDec, hd']
    · simp only [Option.some.injEq] at h; subst h; simp at hk

instance : XSafe X.licenses where
  safe n ls x h y hy old := by
    cases ls with
    | nil => simp [X.licenses] at h
    | cons l ls =>
      simp only [X.licenses, Option.map_eq_some_iff, Option.some.injEq] at h
      obtain ⟨ks, hk, rfl⟩ := h
      refine decEach_spaced (fun _ => rfl) (spaced_kids hy) fun k hkm => ?_
      obtain ⟨a, -, js, hj, hkj⟩ := encEach_mem hk k hkm
      exact (licenseChoice_safe hj k hkj).2.2
  tidy n ls x hn h := by
    cases ls with
    | nil => simp [X.licenses] at h
    | cons l ls =>
      simp only [X.licenses, Option.map_eq_some_iff, Option.some.injEq] at h
      obtain ⟨ks, hk, rfl⟩ := h
      refine tidy_elem hn (by simp) (.inl fun k hkm => ?_) fun k hkm => ?_ <;>
      obtain ⟨a, -, js, hj, hkj⟩ := encEach_mem hk k hkm
      · exact (licenseChoice_safe hj k hkj).1
      · exact (licenseChoice_safe hj k hkj).2.1

instance : XFieldsSafe X.evidenceFields := by unfold X.evidenceFields; infer_instance
instance : XFieldsLawful X.evidenceRaw := by unfold X.evidenceRaw; infer_instance
instance : XFieldsSafe X.evidenceRaw := by unfold X.evidenceRaw; infer_instance

theorem evidenceRaw_nodup : X.evidenceRaw.elemNames.Nodup :=
  show (["occurrence", "text"] : List String).Nodup by decide +kernel

theorem evidenceStep_safe {b : PSlice EvidenceIdentity × PSlice EvidenceOccurrence × Option Callstack ×
    PSlice LicenseChoice × PSlice Copyright × Unit} {ks : List Xml} (h : X.evidenceFields.encKids b = some ks) :
    ∀ k ∈ ks, ∀ l, Spaced k l → ∀ st, X.evidenceStep l st = X.evidenceStep k st := by
  intro k hk y hy st
  obtain ⟨k₁, k₂, h₁, g₂, rfl⟩ := encKids_elem h
  obtain ⟨k₂, k₃, h₂, g₃, rfl⟩ := encKids_elem g₂
  obtain ⟨k₃, k₄, h₃, g₄, rfl⟩ := encKids_elem g₃
  obtain ⟨k₄, k₅, h₄, g₅, rfl⟩ := encKids_elem g₄
  obtain ⟨k₅, k₆, h₅, g₆, rfl⟩ := encKids_elem g₅
  simp only [XFields.encKids, Option.some.injEq] at g₆; subst g₆
  simp only [List.append_nil, List.mem_append] at hk
  rcases hk with hk | hk | hk | hk | hk
  · obtain ⟨as, js, rfl⟩ := Xml.isElem_elim (XFieldLawful.named _ k₁ h₁ k hk)
    obtain ⟨a, -, e⟩ := XField.encList_mem h₁ _ hk
    have hd := XSafe.safe _ a _ e y hy
    obtain ⟨js', rfl, -⟩ := spaced_elem.1 hy
    change ∀ old, X.evidenceIdentity.dec (.elem "identity" as js') old = X.evidenceIdentity.dec (.elem "identity" as js) old at hd
    show X.evidenceStep (.elem "identity" as js') st = X.evidenceStep (.elem "identity" as js) st
    simp [X.evidenceStep, hd]
  · obtain ⟨js, rfl, hj⟩ := XField.nlist_enc_mem h₂ k hk
    have hr : X.evidenceRaw.encKids (b.2.1, .nil, ()) = some (js ++ ([] ++ [])) := by
      simp only [X.evidenceRaw, XFields.encKids]
      rw [show (XField.list "occurrence" true X.evidenceOccurrence).enc b.2.1 = some js from hj]
      rfl
    have hd := dec_spaced X.evidenceRaw rfl hy (fun k hkm l hl b =>
      XFieldsSafe.safe evidenceRaw_nodup _ _ hr k (by simpa [Xml.kids] using hkm) l hl b)
    obtain ⟨js', rfl, -⟩ := spaced_elem.1 hy
    simp [X.evidenceStep, hd]
  · cases hb : b.2.2.1 with
    | none => rw [hb] at h₃; simp only [XField.ptr, Option.some.injEq] at h₃; subst h₃; simp at hk
    | some c =>
      rw [hb] at h₃
      obtain ⟨as, js, rfl⟩ := Xml.isElem_elim (XFieldLawful.named _ k₃ h₃ k hk)
      have e := XField.enc_mem h₃ _ hk
      have hd := XSafe.safe _ _ _ e y hy
      obtain ⟨js', rfl, -⟩ := spaced_elem.1 hy
      change ∀ old, X.callstack.dec (.elem "callstack" as js') old = X.callstack.dec (.elem "callstack" as js) old at hd
      show X.evidenceStep (.elem "callstack" as js') st = X.evidenceStep (.elem "callstack" as js) st
      simp [X.evidenceStep, hd]
  · have e := XField.slice_enc_mem h₄ k hk
    obtain ⟨as, js, rfl⟩ := Xml.isElem_elim (XFieldLawful.named _ k₄ h₄ k hk)
    have hd := XSafe.safe _ _ _ e y hy
    obtain ⟨js', rfl, -⟩ := spaced_elem.1 hy
    change ∀ old, X.licenses.dec (.elem "licenses" as js') old = X.licenses.dec (.elem "licenses" as js) old at hd
    show X.evidenceStep (.elem "licenses" as js') st = X.evidenceStep (.elem "licenses" as js) st
    simp [X.evidenceStep, hd]
  · obtain ⟨js, rfl, hj⟩ := XField.nlist_enc_mem h₅ k hk
    have hr : X.evidenceRaw.encKids (.nil, b.2.2.2.2.1, ()) = some ([] ++ (js ++ [])) := by
      simp only [X.evidenceRaw, XFields.encKids]
      rw [show (XField.list "text" true X.copyright).enc b.2.2.2.2.1 = some js from hj]
      rfl
    have hd := dec_spaced X.evidenceRaw rfl hy (fun k hkm l hl b =>
      XFieldsSafe.safe evidenceRaw_nodup _ _ hr k (by simpa [Xml.kids] using hkm) l hl b)
    obtain ⟨js', rfl, -⟩ := spaced_elem.1 hy
    simp [X.evidenceStep, hd]

instance : XSafe X.evidence where
  safe n ev x h y hy old := by
    simp only [X.evidence] at h ⊢
    split at h
    · cases h
    · simp only [XCodec.struct, Option.map_eq_some_iff, Option.some.injEq] at h
      obtain ⟨ks, hk, rfl⟩ := h
      rw [decAll_spaced (fun _ _ => rfl) (spaced_kids hy) (evidenceStep_safe hk)]
  tidy n ev x hn h := by
    simp only [X.evidence] at h
    split at h
    · cases h
    · simp only [XCodec.struct, Option.map_eq_some_iff, Option.some.injEq] at h
      obtain ⟨ks, hk, rfl⟩ := h
      exact tidy_elem hn ⟨XFieldsSafe.attrs _, encAttrs_nodup X.evidenceFields List.nodup_nil _⟩ (.inl (XFieldsSafe.elems rfl _ ks hk)) (XFieldsSafe.tidy _ ks hk)

instance : XFieldsSafe X.externalReferenceFields := by unfold X.externalReferenceFields; infer_instance
instance : XSafe X.externalReference :=
  xstruct_safe X.externalReferenceFields _ _ (show (["type"] : List String).Nodup by decide +kernel)
    (show (["url", "comment", "hashes", "properties"] : List String).Nodup by decide +kernel) (.inl rfl)

instance : XFieldsSafe X.mlModelCO2MeasureFields := by unfold X.mlModelCO2MeasureFields; infer_instance
instance : XSafe X.mlModelCO2Measure :=
  xstruct_safe X.mlModelCO2MeasureFields _ _ List.nodup_nil
    (show (["value", "unit"] : List String).Nodup by decide +kernel) (.inl rfl)

instance : XFieldsSafe X.mlModelEnergyMeasureFields := by unfold X.mlModelEnergyMeasureFields; infer_instance
instance : XSafe X.mlModelEnergyMeasure :=
  xstruct_safe X.mlModelEnergyMeasureFields _ _ List.nodup_nil
    (show (["value", "unit"] : List String).Nodup by decide +kernel) (.inl rfl)

instance : XFieldsSafe X.mlModelEnergyProviderFields := by unfold X.mlModelEnergyProviderFields; infer_instance
instance : XSafe X.mlModelEnergyProvider :=
  xstruct_safe X.mlModelEnergyProviderFields _ _ (show (["bom-ref"] : List String).Nodup by decide +kernel)
    (show (["description", "organization", "energySource", "energyProvided", "externalReferences"] : List String).Nodup by decide +kernel) (.inl rfl)

instance : XFieldsSafe X.mlModelEnergyConsumptionFields := by unfold X.mlModelEnergyConsumptionFields; infer_instance
instance : XSafe X.mlModelEnergyConsumption :=
  xstruct_safe X.mlModelEnergyConsumptionFields _ _ List.nodup_nil
    (show (["activity", "energyProviders", "activityEnergyCost", "co2CostEquivalent", "co2CostOffset", "properties"] : List String).Nodup by decide +kernel) (.inl rfl)

instance : XFieldsSafe X.mlModelCardEnvironmentalConsiderationsFields := by unfold X.mlModelCardEnvironmentalConsiderationsFields; infer_instance
instance : XSafe X.mlModelCardEnvironmentalConsiderations :=
  xstruct_safe X.mlModelCardEnvironmentalConsiderationsFields _ _ List.nodup_nil
    (show (["energyConsumptions", "properties"] : List String).Nodup by decide +kernel) (.inl rfl)

instance : XFieldsSafe X.mlModelCardEthicalConsiderationFields := by unfold X.mlModelCardEthicalConsiderationFields; infer_instance
instance : XSafe X.mlModelCardEthicalConsideration :=
  xstruct_safe X.mlModelCardEthicalConsiderationFields _ _ List.nodup_nil
    (show (["name", "mitigationStrategy"] : List String).Nodup by decide +kernel) (.inl rfl)

instance : XFieldsSafe X.mlModelCardFairnessAssessmentFields := by unfold X.mlModelCardFairnessAssessmentFields; infer_instance
instance : XSafe X.mlModelCardFairnessAssessment :=
  xstruct_safe X.mlModelCardFairnessAssessmentFields _ _ List.nodup_nil
    (show (["groupAtRisk", "benefits", "harms", "mitigationStrategy"] : List String).Nodup by decide +kernel) (.inl rfl)

instance : XFieldsSafe X.mlModelCardConsiderationsFields := by unfold X.mlModelCardConsiderationsFields; infer_instance
instance : XSafe X.mlModelCardConsiderations :=
  xstruct_safe X.mlModelCardConsiderationsFields _ _ List.nodup_nil
    (show (["users", "useCases", "technicalLimitations", "performanceTradeoffs", "ethicalConsiderations", "environmentalConsiderations", "fairnessAssessments"] : List String).Nodup by decide +kernel) (.inl rfl)

instance : XSafe X.mlDatasetChoiceRef := by
  unfold X.mlDatasetChoiceRef
  exact xstruct_safe _ _ _ List.nodup_nil (show (["ref"] : List String).Nodup by decide +kernel) (.inl rfl)

instance : XSafe X.mlDatasetChoice where
  safe n dc x h y hy old := by
    have hd : ∀ b, X.mlDatasetChoiceFields.dec y b = X.mlDatasetChoiceFields.dec x b := by
      simp only [X.mlDatasetChoice] at h
      split at h
      · simp only [X.mlDatasetChoiceRef, XCodec.struct, Option.map_eq_some_iff, Option.some.injEq] at h
        obtain ⟨ks, hk, rfl⟩ := h
        obtain ⟨k₁, k₂, h₁, g₂, rfl⟩ := encKids_elem hk
        simp only [XFields.encKids, Option.some.injEq] at g₂; subst g₂
        exact dec_holdsText X.mlDatasetChoiceFields rfl hy (holdsText_append (plain_holdsText h₁) (by simp))
      · split at h
        · rename_i d hd
          simp only [X.componentData, XCodec.struct, Option.map_eq_some_iff, Option.some.injEq] at h
          obtain ⟨ks, hk, rfl⟩ := h
          refine dec_spaced X.mlDatasetChoiceFields rfl hy fun k hkm l hl b => ?_
          have hr := componentDataFields_noref _ _ hk k hkm
          have hs := XFieldsSafe.safe (F := X.componentDataFields) (show (["type", "name", "contents", "classification", "sensitiveData", "graphics", "description", "governance"] : List String).Nodup by decide +kernel) _ ks hk k hkm l hl
          unfold X.mlDatasetChoiceFields
          have hr' : k.isElem (XField.plain "ref" false X.string).name = false := hr
          simp [XFields.setKid, spaced_isElem hl, hr', hs]
        · cases h
    simp only [X.mlDatasetChoice, hd]
  tidy n dc x hn h := by
    simp only [X.mlDatasetChoice] at h
    split at h
    · exact XSafe.tidy (c := X.mlDatasetChoiceRef) n _ x hn h
    · split at h
      · exact XSafe.tidy (c := X.componentData) n _ x hn h
      · cases h

instance : XFieldsSafe X.mlInputOutputParametersFields := by unfold X.mlInputOutputParametersFields; infer_instance
instance : XSafe X.mlInputOutputParameters :=
  xstruct_safe X.mlInputOutputParametersFields _ _ List.nodup_nil
    (show (["format"] : List String).Nodup by decide +kernel) (.inl rfl)

instance : XFieldsSafe X.mlModelParametersApproachFields := by unfold X.mlModelParametersApproachFields; infer_instance
instance : XSafe X.mlModelParametersApproach :=
  xstruct_safe X.mlModelParametersApproachFields _ _ List.nodup_nil
    (show (["type"] : List String).Nodup by decide +kernel) (.inl rfl)

instance : XFieldsSafe X.mlModelParametersFields := by unfold X.mlModelParametersFields; infer_instance
instance : XSafe X.mlModelParameters :=
  xstruct_safe X.mlModelParametersFields _ _ List.nodup_nil
    (show (["approach", "task", "architectureFamily", "modelArchitecture", "datasets", "inputs", "outputs"] : List String).Nodup by decide +kernel) (.inl rfl)

instance : XFieldsSafe X.mlPerformanceMetricConfidenceIntervalFields := by unfold X.mlPerformanceMetricConfidenceIntervalFields; infer_instance
instance : XSafe X.mlPerformanceMetricConfidenceInterval :=
  xstruct_safe X.mlPerformanceMetricConfidenceIntervalFields _ _ List.nodup_nil
    (show (["lowerBound", "upperBound"] : List String).Nodup by decide +kernel) (.inl rfl)

instance : XFieldsSafe X.mlPerformanceMetricFields := by unfold X.mlPerformanceMetricFields; infer_instance
instance : XSafe X.mlPerformanceMetric :=
  xstruct_safe X.mlPerformanceMetricFields _ _ List.nodup_nil
    (show (["type", "value", "slice", "confidenceInterval"] : List String).Nodup by decide +kernel) (.inl rfl)

instance : XFieldsSafe X.mlQuantitativeAnalysisFields := by unfold X.mlQuantitativeAnalysisFields; infer_instance
instance : XSafe X.mlQuantitativeAnalysis :=
  xstruct_safe X.mlQuantitativeAnalysisFields _ _ List.nodup_nil
    (show (["performanceMetrics", "graphics"] : List String).Nodup by decide +kernel) (.inl rfl)

instance : XFieldsSafe X.mlModelCardFields := by unfold X.mlModelCardFields; infer_instance
instance : XSafe X.mlModelCard :=
  xstruct_safe X.mlModelCardFields _ _ (show (["bom-ref"] : List String).Nodup by decide +kernel)
    (show (["modelParameters", "quantitativeAnalysis", "considerations"] : List String).Nodup by decide +kernel) (.inl rfl)

instance : XFieldsSafe X.identifiableActionFields := by unfold X.identifiableActionFields; infer_instance
instance : XSafe X.identifiableAction :=
  xstruct_safe X.identifiableActionFields _ _ List.nodup_nil
    (show (["timestamp", "name", "email"] : List String).Nodup by decide +kernel) (.inl rfl)

instance : XFieldsSafe X.commitFields := by unfold X.commitFields; infer_instance
instance : XSafe X.commit :=
  xstruct_safe X.commitFields _ _ List.nodup_nil
    (show (["uid", "url", "author", "committer", "message"] : List String).Nodup by decide +kernel) (.inl rfl)

instance : XFieldsSafe X.diffFields := by unfold X.diffFields; infer_instance
instance : XSafe X.diff :=
  xstruct_safe X.diffFields _ _ List.nodup_nil
    (show (["text", "url"] : List String).Nodup by decide +kernel) (.inl rfl)

instance : XFieldsSafe X.sourceFields := by unfold X.sourceFields; infer_instance
instance : XSafe X.source :=
  xstruct_safe X.sourceFields _ _ List.nodup_nil
    (show (["name", "url"] : List String).Nodup by decide +kernel) (.inl rfl)

instance : XFieldsSafe X.issueFields := by unfold X.issueFields; infer_instance
instance : XSafe X.issue :=
  xstruct_safe X.issueFields _ _ (show (["type"] : List String).Nodup by decide +kernel)
    (show (["id", "name", "description", "source", "references"] : List String).Nodup by decide +kernel) (.inl rfl)

instance : XFieldsSafe X.patchFields := by unfold X.patchFields; infer_instance
instance : XSafe X.patch :=
  xstruct_safe X.patchFields _ _ (show (["type"] : List String).Nodup by decide +kernel)
    (show (["diff", "resolves"] : List String).Nodup by decide +kernel) (.inl rfl)

instance (C : XCodec Component) [XLawful C] [XSafe C] : XFieldsSafe (X.pedigreeFields C) := by unfold X.pedigreeFields; infer_instance
instance (C : XCodec Component) [XLawful C] [XSafe C] : XSafe (X.pedigree C) :=
  xstruct_safe (X.pedigreeFields C) _ _ List.nodup_nil
    (show (["ancestors", "descendants", "variants", "commits", "patches", "notes"] : List String).Nodup by decide +kernel) (.inl rfl)

instance : XFieldsSafe X.noteFields := by unfold X.noteFields; infer_instance
instance : XSafe X.note :=
  xstruct_safe X.noteFields _ _ List.nodup_nil
    (show (["locale", "text"] : List String).Nodup by decide +kernel) (.inl rfl)

instance : XFieldsSafe X.releaseNotesFields := by unfold X.releaseNotesFields; infer_instance
instance : XSafe X.releaseNotes :=
  xstruct_safe X.releaseNotesFields _ _ List.nodup_nil
    (show (["type", "title", "featuredImage", "socialImage", "description", "timestamp", "aliases", "tags", "resolves", "notes", "properties"] : List String).Nodup by decide +kernel) (.inl rfl)

instance : XFieldsSafe X.swidFields := by unfold X.swidFields; infer_instance
instance : XSafe X.swid :=
  xstruct_safe X.swidFields _ _ (show (["url", "tagId", "name", "version", "tagVersion", "patch"] : List String).Nodup by decide +kernel)
    (show (["text"] : List String).Nodup by decide +kernel) (.inl rfl)

instance : XFieldsLawful X.asserterChoiceRaw := by unfold X.asserterChoiceRaw; infer_instance
instance : XFieldsSafe X.asserterChoiceRaw := by unfold X.asserterChoiceRaw; infer_instance

theorem asserterChoiceRaw_nodup : X.asserterChoiceRaw.elemNames.Nodup :=
  show (["organization", "contact", "ref"] : List String).Nodup by decide +kernel

/-- What is written is what would be written by the struct it is read into. -/
theorem asserterChoice_raw {n : String} {ac : AsserterChoice} {x : Xml} (h : X.asserterChoice.enc n ac = some (some x)) :
    ∃ b ks, X.asserterChoiceRaw.encKids b = some ks ∧ x = .elem n [] ks := by
  obtain ⟨o, i, r⟩ := ac
  cases o with
  | some o =>
    cases i with
    | some i => simp [X.asserterChoice] at h
    | none =>
      simp only [X.asserterChoice, XCodec.struct, Option.map_eq_some_iff, Option.some.injEq] at h
      obtain ⟨ks, hk, rfl⟩ := h
      obtain ⟨k₁, k₂, h₁, g₂, rfl⟩ := encKids_elem hk
      simp only [XFields.encKids, Option.some.injEq] at g₂; subst g₂
      refine ⟨(some o, none, none, ()), _, ?_, rfl⟩
      simp only [X.asserterChoiceRaw, XFields.encKids]
      rw [show (XField.ptr "organization" X.organizationalEntity).enc (some o) = some k₁ from h₁]
      rfl
  | none =>
    cases i with
    | some i =>
      simp only [X.asserterChoice, XCodec.struct, Option.map_eq_some_iff, Option.some.injEq] at h
      obtain ⟨ks, hk, rfl⟩ := h
      obtain ⟨k₁, k₂, h₁, g₂, rfl⟩ := encKids_elem hk
      simp only [XFields.encKids, Option.some.injEq] at g₂; subst g₂
      refine ⟨(none, some i, none, ()), _, ?_, rfl⟩
      simp only [X.asserterChoiceRaw, XFields.encKids]
      rw [show (XField.ptr "contact" X.organizationalContact).enc (some i) = some k₁ from h₁]
      rfl
    | none =>
      cases r with
      | none => simp [X.asserterChoice] at h
      | some r =>
        simp only [X.asserterChoice, XCodec.struct, Option.map_eq_some_iff, Option.some.injEq] at h
        obtain ⟨ks, hk, rfl⟩ := h
        obtain ⟨k₁, k₂, h₁, g₂, rfl⟩ := encKids_elem hk
        simp only [XFields.encKids, Option.some.injEq] at g₂; subst g₂
        refine ⟨(none, none, some r, ()), _, ?_, rfl⟩
        simp only [X.asserterChoiceRaw, XFields.encKids]
        rw [show (XField.ptr "ref" X.bomReference).enc (some r) = some k₁ from h₁]
        rfl

instance : XSafe X.asserterChoice where
  safe n ac x h y hy old := by
    obtain ⟨b, ks, hk, rfl⟩ := asserterChoice_raw h
    simp only [X.asserterChoice, dec_spaced X.asserterChoiceRaw rfl hy
      (fun k hkm l hl b => XFieldsSafe.safe asserterChoiceRaw_nodup _ ks hk k hkm l hl b)]
  tidy n ac x hn h := by
    obtain ⟨b, ks, hk, rfl⟩ := asserterChoice_raw h
    exact tidy_elem hn (by simp) (.inl (XFieldsSafe.elems rfl _ ks hk)) (XFieldsSafe.tidy _ ks hk)

instance : XFieldsSafe X.patentAssertionFields := by unfold X.patentAssertionFields; infer_instance
instance : XSafe X.patentAssertion :=
  xstruct_safe X.patentAssertionFields _ _ (show (["bom-ref"] : List String).Nodup by decide +kernel)
    (show (["patentRefs", "assertionType", "asserter", "notes"] : List String).Nodup by decide +kernel) (.inl rfl)

instance (C : XCodec Component) [XLawful C] [XSafe C] : XFieldsSafe (X.componentFields C) := by unfold X.componentFields; infer_instance
instance (C : XCodec Component) [XLawful C] [XSafe C] : XSafe (X.componentWith C) :=
  xstruct_safe (X.componentFields C) _ _ (show (["bom-ref", "mime-type", "type"] : List String).Nodup by decide +kernel)
    (show (["supplier", "manufacturer", "author", "authors", "publisher", "group", "name", "version", "description", "scope", "hashes", "licenses", "copyright", "cpe", "purl", "omniborId", "swhid", "swid", "modified", "pedigree", "externalReferences", "properties", "components", "evidence", "releaseNotes", "modelCard", "data", "cryptoProperties", "tags", "isExternal", "patentAssertions", "versionRange"] : List String).Nodup by decide +kernel) (.inl rfl)

theorem xcomponentN_safe (n : Nat) : XSafe (X.componentN n) := by
  induction n with
  | zero => exact inferInstanceAs (XSafe (X.bottom _))
  | succ n ih =>
    have := xcomponent_knotted.lawful n
    exact inferInstanceAs (XSafe (X.componentWith (X.componentN n)))

instance : XSafe X.component := xknot_safe xcomponent_knotted xcomponentN_safe

theorem spliced_spacedL {known : List String} {stop : String} : ∀ {ks ls : List Xml}, SpacedL ks ls →
    (∀ x ∈ ks, ∃ n ∈ known, x.isElem n = true) →
    ∃ ls', X.spliced known stop ls = some ls' ∧ SpacedL ks ls' ∧ (∀ l ∈ ls', ∃ k ∈ ks, Spaced k l) ∧
      ((∀ k ∈ ks, ∀ l, Spaced k l → l = k) → ls' = ks) := by
  intro ks
  have blank : ∀ {bs : List Xml}, (∀ b ∈ bs, IsBlank b) → X.spliced known stop bs = some [] := by
    intro bs
    induction bs with
    | nil => intro _; simp [X.spliced]
    | cons b bs ih =>
      intro h
      obtain ⟨s, rfl, -⟩ := h b (by simp)
      simp only [X.spliced, X.spliceOne, ih fun b hb => h b (by simp [hb])]
      rfl
  induction ks with
  | nil =>
    intro ls h _
    exact ⟨[], blank (by simpa only [SpacedL] using h), by simp [SpacedL], by simp, fun _ => rfl⟩
  | cons k ks ih =>
    intro ls h hk
    simp only [SpacedL] at h
    obtain ⟨bs, l, ls', rfl, hb, hl, hr⟩ := h
    obtain ⟨ls'', e, hs, hm, hall⟩ := ih hr fun x hx => hk x (by simp [hx])
    obtain ⟨n, hn, hx⟩ := hk k (by simp)
    have hx' := hx
    rw [← spaced_isElem hl] at hx'
    obtain ⟨as, js, rfl⟩ := Xml.isElem_elim hx'
    refine ⟨.elem n as js :: ls'', ?_, ?_, ?_, ?_⟩
    · rw [spliced_append, blank hb]
      simp only [X.spliced, X.spliceOne, hn, if_true, e]
      rfl
    · simp only [SpacedL]
      exact ⟨[], _, ls'', rfl, by simp, hl, hs⟩
    · intro l hl'
      rcases List.mem_cons.1 hl' with rfl | hl'
      · exact ⟨k, by simp, hl⟩
      · obtain ⟨k', hk', hkl⟩ := hm l hl'
        exact ⟨k', by simp [hk'], hkl⟩
    · intro h
      rw [h k (by simp) _ hl, hall fun k' hk' => h k' (by simp [hk'])]

theorem spliced_spacedK {known : List String} {stop : String} {ks ls : List Xml} (h : SpacedK ks ls)
    (hk : ∀ x ∈ ks, ∃ n ∈ known, x.isElem n = true) :
    ∃ ls', X.spliced known stop ls = some ls' ∧ SpacedK ks ls' ∧
      ((∀ k ∈ ks, ∀ l, Spaced k l → l = k) → ls' = ks) := by
  rcases h with rfl | ⟨hne, ha, h⟩
  · exact ⟨ls, spliced_known ls hk, .inl rfl, fun _ => rfl⟩
  · obtain ⟨ls', e, hs, -, hall⟩ := spliced_spacedL (stop := stop) h hk
    exact ⟨ls', e, .inr ⟨hne, ha, hs⟩, hall⟩

theorem urls_spaced {name : String} {us : List String} {ls : List Xml}
    (h : SpacedK (us.map fun u => .elem "url" [] (textKids (sanitize u))) ls) :
    X.urls name ls = X.urls name (us.map fun u => .elem "url" [] (textKids (sanitize u))) := by
  have hk : ∀ x ∈ us.map (fun u => Xml.elem "url" [] (textKids (sanitize u))), ∃ n ∈ ["url"], x.isElem n = true := by
    intro x hx
    obtain ⟨u, -, rfl⟩ := List.mem_map.1 hx
    exact ⟨"url", by simp, by simp [Xml.isElem]⟩
  obtain ⟨ls', e, -, hall⟩ := spliced_spacedK (stop := name) h hk
  unfold X.urls
  rw [e, spliced_known _ hk, hall]
  intro k hkm l hl
  obtain ⟨u, -, rfl⟩ := List.mem_map.1 hkm
  exact spaced_textKids hl

theorem attrUnlessEmpty_ok (n s : String) [N : OKName n] : ∀ kv ∈ X.attrUnlessEmpty n s, OKName kv.1 ∧ Allowed kv.2 := by
  intro kv h
  unfold X.attrUnlessEmpty at h
  split at h
  · simp only [List.mem_singleton] at h; subst h; exact ⟨N, allowed_sanitize s⟩
  · simp at h

theorem attrUnlessEmpty_nodup (n s : String) : ((X.attrUnlessEmpty n s).map Prod.fst).Nodup := by
  unfold X.attrUnlessEmpty
  split <;> simp

theorem attrs2_nodup (s t : String) :
    ((X.attrUnlessEmpty "name" s ++ X.attrUnlessEmpty "description" t).map Prod.fst).Nodup := by
  unfold X.attrUnlessEmpty
  split <;> split <;> simp

theorem urlsElem_mem {n : String} {us : PSlice String} : ∀ k ∈ X.urlsElem n us,
    k = .elem n [] (us.elems.map fun u => .elem "url" [] (textKids (sanitize u))) := by
  intro k hk
  unfold X.urlsElem at hk
  split at hk
  · simp at hk
  · simpa using hk

theorem urlsElem_tidy {n : String} [N : OKName n] {us : PSlice String} : ∀ k ∈ X.urlsElem n us, k.Tidy := by
  intro k hk
  rw [urlsElem_mem k hk]
  refine tidy_elem N (by simp) (.inl fun x hx => ?_) fun x hx => ?_ <;>
  obtain ⟨u, -, rfl⟩ := List.mem_map.1 hx
  · exact ⟨_, _, _, rfl⟩
  · exact tidy_elem inferInstance (by simp) (textKids_shape _) (tidy_textKids (allowed_sanitize _))

/-- What is written for a data flow, part by part. -/
theorem dataClassification_parts {n : String} {dc : DataClassification} {x : Xml}
    (h : X.dataClassification.enc n dc = some (some x)) :
    ∃ cs gs, x = .elem "dataflow" (X.attrUnlessEmpty "name" dc.name ++ X.attrUnlessEmpty "description" dc.description)
        (cs ++ gs ++ X.urlsElem "source" dc.source ++ X.urlsElem "destination" dc.destination) ∧
      (∀ k ∈ cs, k = .elem "classification" (X.attrUnlessEmpty "flow" dc.flow) (textKids (sanitize dc.classification))) ∧
      (XField.ptr "governance" X.dataGovernance).enc dc.governance = some gs := by
  simp only [X.dataClassification] at h
  split at h
  · cases h
  · rename_i gs hg
    simp only [Option.some.injEq] at h; subst h
    refine ⟨_, gs, rfl, fun k hk => ?_, hg⟩
    split at hk
    · simpa using hk
    · simp at hk

instance : XSafe X.dataClassification where
  safe n dc x h y hy old := by
    obtain ⟨cs, gs, rfl, hc, hg⟩ := dataClassification_parts h
    have hgn := XFieldLawful.named (f := XField.ptr "governance" X.dataGovernance) dc.governance gs hg
    have hknown : ∀ x ∈ cs ++ gs ++ X.urlsElem "source" dc.source ++ X.urlsElem "destination" dc.destination,
        ∃ n ∈ ["classification", "governance", "source", "destination"], x.isElem n = true := by
      intro x hx
      simp only [List.mem_append] at hx
      rcases hx with ((hx | hx) | hx) | hx
      · rw [hc x hx]; exact ⟨"classification", by simp, by simp [Xml.isElem]⟩
      · exact ⟨"governance", by simp, hgn x hx⟩
      · rw [urlsElem_mem x hx]; exact ⟨"source", by simp, by simp [Xml.isElem]⟩
      · rw [urlsElem_mem x hx]; exact ⟨"destination", by simp, by simp [Xml.isElem]⟩
    obtain ⟨ls, rfl, hl⟩ := spaced_elem.1 hy
    obtain ⟨ls', e, hs, -⟩ := spliced_spacedK (stop := "dataflow") hl hknown
    simp only [X.dataClassification, Xml.name, Xml.kids, Xml.attrs, e, spliced_known _ hknown]
    rw [decAll_spaced (fun _ _ => rfl) hs]
    intro k hkm l hkl a
    simp only [List.mem_append] at hkm
    rcases hkm with ((hkm | hkm) | hkm) | hkm
    · have e := hc k hkm
      subst e
      rw [spaced_textKids hkl]
    · cases hb : dc.governance with
      | none => rw [hb] at hg; simp only [XField.ptr, Option.some.injEq] at hg; subst hg; simp at hkm
      | some g =>
        rw [hb] at hg
        obtain ⟨as, js, rfl⟩ := Xml.isElem_elim (hgn k hkm)
        have e := XField.enc_mem hg _ hkm
        have hd := XSafe.safe _ _ _ e l hkl
        obtain ⟨js', rfl, -⟩ := spaced_elem.1 hkl
        change ∀ old, X.dataGovernance.dec (.elem "governance" as js') old =
          X.dataGovernance.dec (.elem "governance" as js) old at hd
        show X.dataClassificationStep (.elem "governance" as js') a = X.dataClassificationStep (.elem "governance" as js) a
        simp [X.dataClassificationStep, hd]
    · have e := urlsElem_mem k hkm
      subst e
      obtain ⟨js, rfl, hj⟩ := spaced_elem.1 hkl
      simp [X.dataClassificationStep, urls_spaced hj]
    · have e := urlsElem_mem k hkm
      subst e
      obtain ⟨js, rfl, hj⟩ := spaced_elem.1 hkl
      simp [X.dataClassificationStep, urls_spaced hj]
  tidy n dc x hn h := by
    obtain ⟨cs, gs, rfl, hc, hg⟩ := dataClassification_parts h
    have hgn := XFieldLawful.named (f := XField.ptr "governance" X.dataGovernance) dc.governance gs hg
    refine tidy_elem inferInstance ⟨fun kv hkv => ?_, attrs2_nodup _ _⟩ (.inl fun k hk => ?_) fun k hk => ?_
    · rcases List.mem_append.1 hkv with hkv | hkv
      · exact attrUnlessEmpty_ok _ _ kv hkv
      · exact attrUnlessEmpty_ok _ _ kv hkv
    · simp only [List.mem_append] at hk
      rcases hk with ((hk | hk) | hk) | hk
      · rw [hc k hk]; exact ⟨_, _, _, rfl⟩
      · exact tidy_isElem (hgn k hk)
      · rw [urlsElem_mem k hk]; exact ⟨_, _, _, rfl⟩
      · rw [urlsElem_mem k hk]; exact ⟨_, _, _, rfl⟩
    · simp only [List.mem_append] at hk
      rcases hk with ((hk | hk) | hk) | hk
      · rw [hc k hk]
        exact tidy_elem inferInstance ⟨attrUnlessEmpty_ok _ _, attrUnlessEmpty_nodup _ _⟩ (textKids_shape _) (tidy_textKids (allowed_sanitize _))
      · exact XFieldSafe.tidy _ gs hg k hk
      · exact urlsElem_tidy k hk
      · exact urlsElem_tidy k hk

instance (C : XCodec Service) [XLawful C] [XSafe C] : XFieldsSafe (X.serviceFields C) := by unfold X.serviceFields; infer_instance
instance (C : XCodec Service) [XLawful C] [XSafe C] : XSafe (X.serviceWith C) :=
  xstruct_safe (X.serviceFields C) _ _ (show (["bom-ref"] : List String).Nodup by decide +kernel)
    (show (["provider", "group", "name", "version", "description", "endpoints", "authenticated", "x-trust-boundary", "data", "licenses", "externalReferences", "properties", "services", "releaseNotes", "tags", "trustZone", "patentAssertions"] : List String).Nodup by decide +kernel) (.inl rfl)

theorem xserviceN_safe (n : Nat) : XSafe (X.serviceN n) := by
  induction n with
  | zero => exact inferInstanceAs (XSafe (X.bottom _))
  | succ n ih =>
    have := xservice_knotted.lawful n
    exact inferInstanceAs (XSafe (X.serviceWith (X.serviceN n)))

instance : XSafe X.service := xknot_safe xservice_knotted xserviceN_safe

instance : XFieldsSafe X.annotatorFields := by unfold X.annotatorFields; infer_instance
instance : XSafe X.annotator :=
  xstruct_safe X.annotatorFields _ _ List.nodup_nil
    (show (["organization", "individual", "component", "service"] : List String).Nodup by decide +kernel) (.inl rfl)

instance : XFieldsSafe X.annotationFields := by unfold X.annotationFields; infer_instance
instance : XSafe X.annotation :=
  xstruct_safe X.annotationFields _ _ (show (["bom-ref"] : List String).Nodup by decide +kernel)
    (show (["subjects", "annotator", "timestamp", "text"] : List String).Nodup by decide +kernel) (.inl rfl)

instance : XFieldsSafe X.assessorFields := by unfold X.assessorFields; infer_instance
instance : XSafe X.assessor :=
  xstruct_safe X.assessorFields _ _ (show (["bom-ref"] : List String).Nodup by decide +kernel)
    (show (["thirdParty", "organization"] : List String).Nodup by decide +kernel) (.inl rfl)

instance : XFieldsSafe X.attestationConformanceFields := by unfold X.attestationConformanceFields; infer_instance
instance : XSafe X.attestationConformance :=
  xstruct_safe X.attestationConformanceFields _ _ List.nodup_nil
    (show (["score", "rationale", "mitigationStrategies"] : List String).Nodup by decide +kernel) (.inl rfl)

instance : XFieldsSafe X.attestationConfidenceFields := by unfold X.attestationConfidenceFields; infer_instance
instance : XSafe X.attestationConfidence :=
  xstruct_safe X.attestationConfidenceFields _ _ List.nodup_nil
    (show (["score", "rationale"] : List String).Nodup by decide +kernel) (.inl rfl)

instance : XFieldsSafe X.attestationMapFields := by unfold X.attestationMapFields; infer_instance
instance : XSafe X.attestationMap :=
  xstruct_safe X.attestationMapFields _ _ List.nodup_nil
    (show (["requirement", "claims", "counterClaims", "conformance", "confidence"] : List String).Nodup by decide +kernel) (.inl rfl)

instance : XFieldsSafe X.attestationFields := by unfold X.attestationFields; infer_instance
instance : XSafe X.attestation :=
  xstruct_safe X.attestationFields _ _ List.nodup_nil
    (show (["summary", "assessor", "map"] : List String).Nodup by decide +kernel) (.inl rfl)

instance : XFieldsSafe X.compositionFields := by unfold X.compositionFields; infer_instance
instance : XSafe X.composition :=
  xstruct_safe X.compositionFields _ _ (show (["bom-ref"] : List String).Nodup by decide +kernel)
    (show (["aggregate", "assemblies", "dependencies", "vulnerabilities"] : List String).Nodup by decide +kernel) (.inl rfl)

instance : XFieldsSafe X.claimFields := by unfold X.claimFields; infer_instance
instance : XSafe X.claim :=
  xstruct_safe X.claimFields _ _ (show (["bom-ref"] : List String).Nodup by decide +kernel)
    (show (["target", "predicate", "mitigationStrategies", "reasoning", "evidence", "counterEvidence", "externalReferences"] : List String).Nodup by decide +kernel) (.inl rfl)

instance : XFieldsSafe X.evidenceDataContentsFields := by unfold X.evidenceDataContentsFields; infer_instance
instance : XSafe X.evidenceDataContents :=
  xstruct_safe X.evidenceDataContentsFields _ _ List.nodup_nil
    (show (["attachment", "url"] : List String).Nodup by decide +kernel) (.inl rfl)

instance : XFieldsSafe X.evidenceDataFields := by unfold X.evidenceDataFields; infer_instance
instance : XSafe X.evidenceData :=
  xstruct_safe X.evidenceDataFields _ _ List.nodup_nil
    (show (["name", "contents", "data", "sensitiveData", "governance"] : List String).Nodup by decide +kernel) (.inl rfl)

instance : XFieldsSafe X.declarationEvidenceFields := by unfold X.declarationEvidenceFields; infer_instance
instance : XSafe X.declarationEvidence :=
  xstruct_safe X.declarationEvidenceFields _ _ (show (["bom-ref"] : List String).Nodup by decide +kernel)
    (show (["propertyName", "description", "data", "created", "expires", "author", "reviewer"] : List String).Nodup by decide +kernel) (.inl rfl)

instance : XFieldsSafe X.targetsFields := by unfold X.targetsFields; infer_instance
instance : XSafe X.targets :=
  xstruct_safe X.targetsFields _ _ List.nodup_nil
    (show (["organizations", "components", "services"] : List String).Nodup by decide +kernel) (.inl rfl)

instance : XFieldsSafe X.signatoryFields := by unfold X.signatoryFields; infer_instance
instance : XSafe X.signatory :=
  xstruct_safe X.signatoryFields _ _ List.nodup_nil
    (show (["name", "role", "organization", "externalReference"] : List String).Nodup by decide +kernel) (.inl rfl)

instance : XFieldsSafe X.affirmationFields := by unfold X.affirmationFields; infer_instance
instance : XSafe X.affirmation :=
  xstruct_safe X.affirmationFields _ _ List.nodup_nil
    (show (["statement", "signatories"] : List String).Nodup by decide +kernel) (.inl rfl)

instance : XFieldsSafe X.declarationsFields := by unfold X.declarationsFields; infer_instance
instance : XSafe X.declarations :=
  xstruct_safe X.declarationsFields _ _ List.nodup_nil
    (show (["assessors", "attestations", "claims", "evidence", "targets", "affirmation"] : List String).Nodup by decide +kernel) (.inl rfl)

instance : XFieldsSafe X.priorityApplicationFields := by unfold X.priorityApplicationFields; infer_instance
instance : XSafe X.priorityApplication :=
  xstruct_safe X.priorityApplicationFields _ _ List.nodup_nil
    (show (["applicationNumber", "jurisdiction", "filingDate"] : List String).Nodup by decide +kernel) (.inl rfl)

instance : XFieldsSafe X.patentFields := by unfold X.patentFields; infer_instance
instance : XSafe X.patent :=
  xstruct_safe X.patentFields _ _ (show (["bom-ref"] : List String).Nodup by decide +kernel)
    (show (["patentNumber", "applicationNumber", "jurisdiction", "priorityApplication", "publicationNumber", "title", "abstract", "filingDate", "grantDate", "patentExpirationDate", "patentLegalStatus", "patentAssignee", "externalReferences"] : List String).Nodup by decide +kernel) (.inl rfl)

instance : XFieldsSafe X.patentFamilyFields := by unfold X.patentFamilyFields; infer_instance
instance : XSafe X.patentFamily :=
  xstruct_safe X.patentFamilyFields _ _ (show (["bom-ref"] : List String).Nodup by decide +kernel)
    (show (["familyId", "priorityApplication", "members", "externalReferences"] : List String).Nodup by decide +kernel) (.inl rfl)

instance : XFieldsSafe X.standardRequirementFields := by unfold X.standardRequirementFields; infer_instance
instance : XSafe X.standardRequirement :=
  xstruct_safe X.standardRequirementFields _ _ (show (["bom-ref"] : List String).Nodup by decide +kernel)
    (show (["identifier", "title", "text", "descriptions", "openCre", "parent", "properties", "externalReferences"] : List String).Nodup by decide +kernel) (.inl rfl)

instance : XFieldsSafe X.standardLevelFields := by unfold X.standardLevelFields; infer_instance
instance : XSafe X.standardLevel :=
  xstruct_safe X.standardLevelFields _ _ (show (["bom-ref"] : List String).Nodup by decide +kernel)
    (show (["identifier", "title", "description", "requirements"] : List String).Nodup by decide +kernel) (.inl rfl)

instance : XFieldsSafe X.standardDefinitionFields := by unfold X.standardDefinitionFields; infer_instance
instance : XSafe X.standardDefinition :=
  xstruct_safe X.standardDefinitionFields _ _ (show (["bom-ref"] : List String).Nodup by decide +kernel)
    (show (["name", "version", "description", "owner", "requirements", "levels", "externalReferences"] : List String).Nodup by decide +kernel) (.inl rfl)

theorem enclosed_mem {α : Type} {n : String} {f : α → Option (List Xml)} {as : PSlice α} {xs : List Xml}
    (h : X.enclosed n f as = some xs) : ∀ x ∈ xs, ∃ ks, x = .elem n [] ks ∧ X.encEach f as.elems = some ks := by
  intro x hx
  cases as with
  | nil => simp only [X.enclosed, Option.some.injEq] at h; subst h; simp at hx
  | nilSlice =>
    simp only [X.enclosed] at h
    obtain ⟨ks, hk, rfl⟩ := Option.map_eq_some_iff.1 h
    simp only [List.mem_singleton] at hx
    exact ⟨ks, hx, hk⟩
  | list as =>
    simp only [X.enclosed] at h
    obtain ⟨ks, hk, rfl⟩ := Option.map_eq_some_iff.1 h
    simp only [List.mem_singleton] at hx
    exact ⟨ks, hx, hk⟩

theorem standard_safe {s : StandardDefinition} {ks : List Xml}
    (h : (X.standardDefinition.enc "standard" s).map (·.toList) = some ks) :
    ∀ k ∈ ks, (∃ n as ls, k = .elem n as ls) ∧ k.Tidy ∧ ∀ l, Spaced k l → X.standardDec l = X.standardDec k := by
  intro k hk
  have e := XField.enc_mem h k hk
  have hn := XLawful.named "standard" s k e
  obtain ⟨as, js, rfl⟩ := Xml.isElem_elim hn
  refine ⟨⟨_, _, _, rfl⟩, XSafe.tidy "standard" s _ inferInstance e, fun y hy => ?_⟩
  have hd := XSafe.safe "standard" s _ e y hy
  obtain ⟨js', rfl, -⟩ := spaced_elem.1 hy
  have e0 : X.standardDefinition.rename "standard" = "standard" := rfl
  rw [e0] at hd ⊢
  simp [X.standardDec, hd]

theorem patentChoice_safe {c : PatentChoice} {ks : List Xml} (h : X.patentChoiceEnc c = some ks) :
    ∀ k ∈ ks, (∃ n as ls, k = .elem n as ls) ∧ k.Tidy ∧ ∀ l, Spaced k l → X.patentChoiceDec l = X.patentChoiceDec k := by
  intro k hk
  simp only [X.patentChoiceEnc] at h
  split at h
  · rename_i p _ _
    have e := XField.enc_mem h k hk
    have hn := XLawful.named "patent" _ k e
    obtain ⟨as, js, rfl⟩ := Xml.isElem_elim hn
    refine ⟨⟨_, _, _, rfl⟩, XSafe.tidy "patent" _ _ inferInstance e, fun y hy => ?_⟩
    have hd := XSafe.safe "patent" _ _ e y hy
    obtain ⟨js', rfl, -⟩ := spaced_elem.1 hy
    have e0 : X.patent.rename "patent" = "patent" := rfl
    rw [e0] at hd ⊢
    simp [X.patentChoiceDec, hd]
  · have e := XField.enc_mem h k hk
    have hn := XLawful.named "patentFamily" _ k e
    obtain ⟨as, js, rfl⟩ := Xml.isElem_elim hn
    refine ⟨⟨_, _, _, rfl⟩, XSafe.tidy "patentFamily" _ _ inferInstance e, fun y hy => ?_⟩
    have hd := XSafe.safe "patentFamily" _ _ e y hy
    obtain ⟨js', rfl, -⟩ := spaced_elem.1 hy
    have e0 : X.patentFamily.rename "patentFamily" = "patentFamily" := rfl
    rw [e0] at hd ⊢
    simp [X.patentChoiceDec, hd]
  · simp only [Option.some.injEq] at h; subst h; simp at hk

theorem definitions_parts {n : String} {d : Definitions} {x : Xml} (h : X.definitions.enc n d = some (some x)) :
    ∃ ss ps, X.enclosed "standards" (fun s => (X.standardDefinition.enc "standard" s).map (·.toList)) d.standards =
      some ss ∧ X.enclosed "patents" X.patentChoiceEnc d.patents = some ps ∧ x = .elem n [] (ss ++ ps) := by
  simp only [X.definitions] at h
  split at h
  · rename_i ss ps hs hp
    simp only [Option.some.injEq] at h
    exact ⟨ss, ps, hs, hp, h.symm⟩
  · cases h

instance : XSafe X.definitions where
  safe n d x h y hy old := by
    obtain ⟨ss, ps, hs, hp, rfl⟩ := definitions_parts h
    simp only [X.definitions]
    refine decAll_spaced (fun _ _ => rfl) (spaced_kids hy) (fun k hkm l hl a => ?_) old
    simp only [Xml.kids, List.mem_append] at hkm
    rcases hkm with hkm | hkm
    · obtain ⟨ks, rfl, hk⟩ := enclosed_mem hs k hkm
      obtain ⟨ls, rfl, hls⟩ := spaced_elem.1 hl
      have : X.decEach X.standardDec ls = X.decEach X.standardDec ks :=
        decEach_spaced (fun _ => rfl) hls fun k hkm => by
          obtain ⟨a, -, js, hj, hkj⟩ := encEach_mem hk k hkm
          exact (standard_safe hj k hkj).2.2
      simp [X.definitionsStep, this]
    · obtain ⟨ks, rfl, hk⟩ := enclosed_mem hp k hkm
      obtain ⟨ls, rfl, hls⟩ := spaced_elem.1 hl
      have : X.decEach X.patentChoiceDec ls = X.decEach X.patentChoiceDec ks :=
        decEach_spaced (fun _ => rfl) hls fun k hkm => by
          obtain ⟨a, -, js, hj, hkj⟩ := encEach_mem hk k hkm
          exact (patentChoice_safe hj k hkj).2.2
      simp [X.definitionsStep, this]
  tidy n d x hn h := by
    obtain ⟨ss, ps, hs, hp, rfl⟩ := definitions_parts h
    refine tidy_elem hn (by simp) (.inl fun k hkm => ?_) fun k hkm => ?_ <;>
    rcases List.mem_append.1 hkm with hkm | hkm
    · obtain ⟨ks, rfl, hk⟩ := enclosed_mem hs k hkm; exact ⟨_, _, _, rfl⟩
    · obtain ⟨ks, rfl, hk⟩ := enclosed_mem hp k hkm; exact ⟨_, _, _, rfl⟩
    · obtain ⟨ks, rfl, hk⟩ := enclosed_mem hs k hkm
      refine tidy_elem inferInstance (by simp) (.inl fun k hkm => ?_) fun k hkm => ?_ <;>
      obtain ⟨a, -, js, hj, hkj⟩ := encEach_mem hk k hkm
      · exact (standard_safe hj k hkj).1
      · exact (standard_safe hj k hkj).2.1
    · obtain ⟨ks, rfl, hk⟩ := enclosed_mem hp k hkm
      refine tidy_elem inferInstance (by simp) (.inl fun k hkm => ?_) fun k hkm => ?_ <;>
      obtain ⟨a, -, js, hj, hkj⟩ := encEach_mem hk k hkm
      · exact (patentChoice_safe hj k hkj).1
      · exact (patentChoice_safe hj k hkj).2.1

instance : XFieldsSafe X.dependencyFields := by unfold X.dependencyFields; infer_instance
instance : XSafe X.dependency :=
  fresh_safe (xstruct_safe X.dependencyFields _ _ (by simp [X.dependencyFields, XFields.attrNames])
     (by simp [X.dependencyFields, XFields.elemNames, XField.list])
    (.inl rfl))

instance : XFieldsSafe X.resourceReferenceChoiceFields := by unfold X.resourceReferenceChoiceFields; infer_instance
instance : XSafe X.resourceReferenceChoice :=
  xstruct_safe X.resourceReferenceChoiceFields _ _ List.nodup_nil
    (show (["ref", "externalReference"] : List String).Nodup by decide +kernel) (.inl rfl)

theorem environmentVariable_safe {c : EnvironmentVariableChoice} {ks : List Xml} (h : X.environmentVariableEnc c = some ks) :
    ∀ k ∈ ks, (∃ n as ls, k = .elem n as ls) ∧ k.Tidy ∧
      ∀ l, Spaced k l → X.environmentVariableDec l = X.environmentVariableDec k := by
  intro k hk
  simp only [X.environmentVariableEnc] at h
  split at h
  · rename_i p hp
    split at h
    · cases h
    · have e := XField.enc_mem h k hk
      have hn := XLawful.named "environmentVar" p k e
      obtain ⟨as, js, rfl⟩ := Xml.isElem_elim hn
      refine ⟨⟨_, _, _, rfl⟩, XSafe.tidy "environmentVar" p _ inferInstance e, fun y hy => ?_⟩
      have hd := XSafe.safe "environmentVar" p _ e y hy
      obtain ⟨js', rfl, -⟩ := spaced_elem.1 hy
      have e0 : X.property.rename "environmentVar" = "environmentVar" := rfl
      rw [e0] at hd ⊢
      simp [X.environmentVariableDec, hd]
  · split at h
    · have e := XField.enc_mem h k hk
      refine ⟨tidy_isElem (XLawful.named "value" _ k e), XSafe.tidy "value" _ _ inferInstance e, fun y hy => ?_⟩
      simp only [XCodec.simple, Option.some.injEq] at e; subst e
      rw [spaced_textKids hy]
    · simp only [Option.some.injEq] at h; subst h; simp at hk

instance : XSafe X.environmentVariables where
  safe n ls x h y hy old := by
    cases ls with
    | nil => simp [X.environmentVariables] at h
    | cons l ls =>
      simp only [X.environmentVariables, Option.map_eq_some_iff, Option.some.injEq] at h
      obtain ⟨ks, hk, rfl⟩ := h
      refine decEach_spaced (fun _ => rfl) (spaced_kids hy) fun k hkm => ?_
      obtain ⟨a, -, js, hj, hkj⟩ := encEach_mem hk k hkm
      exact (environmentVariable_safe hj k hkj).2.2
  tidy n ls x hn h := by
    cases ls with
    | nil => simp [X.environmentVariables] at h
    | cons l ls =>
      simp only [X.environmentVariables, Option.map_eq_some_iff, Option.some.injEq] at h
      obtain ⟨ks, hk, rfl⟩ := h
      refine tidy_elem hn (by simp) (.inl fun k hkm => ?_) fun k hkm => ?_ <;>
      obtain ⟨a, -, js, hj, hkj⟩ := encEach_mem hk k hkm
      · exact (environmentVariable_safe hj k hkj).1
      · exact (environmentVariable_safe hj k hkj).2.1

instance : XFieldsSafe X.parameterFields := by unfold X.parameterFields; infer_instance
instance : XSafe X.parameter :=
  xstruct_safe X.parameterFields _ _ List.nodup_nil
    (show (["name", "value", "dataType"] : List String).Nodup by decide +kernel) (.inl rfl)

instance : XFieldsSafe X.taskInputFields := by unfold X.taskInputFields; infer_instance
instance : XSafe X.taskInput :=
  xstruct_safe X.taskInputFields _ _ List.nodup_nil
    (show (["resource", "parameters", "environmentVars", "data", "source", "target", "properties"] : List String).Nodup by decide +kernel) (.inl rfl)

instance : XFieldsSafe X.taskOutputFields := by unfold X.taskOutputFields; infer_instance
instance : XSafe X.taskOutput :=
  xstruct_safe X.taskOutputFields _ _ List.nodup_nil
    (show (["resource", "parameters", "environmentVars", "data", "type", "source", "target", "properties"] : List String).Nodup by decide +kernel) (.inl rfl)

instance : XFieldsSafe X.taskCommandFields := by unfold X.taskCommandFields; infer_instance
instance : XSafe X.taskCommand :=
  xstruct_safe X.taskCommandFields _ _ List.nodup_nil
    (show (["executed", "properties"] : List String).Nodup by decide +kernel) (.inl rfl)

instance : XFieldsSafe X.taskStepFields := by unfold X.taskStepFields; infer_instance
instance : XSafe X.taskStep :=
  xstruct_safe X.taskStepFields _ _ List.nodup_nil
    (show (["name", "description", "commands", "properties"] : List String).Nodup by decide +kernel) (.inl rfl)

instance : XFieldsSafe X.eventFields := by unfold X.eventFields; infer_instance
instance : XSafe X.event :=
  xstruct_safe X.eventFields _ _ List.nodup_nil
    (show (["uid", "description", "timeReceived", "data", "source", "target", "properties"] : List String).Nodup by decide +kernel) (.inl rfl)

instance : XFieldsSafe X.taskTriggerConditionFields := by unfold X.taskTriggerConditionFields; infer_instance
instance : XSafe X.taskTriggerCondition :=
  xstruct_safe X.taskTriggerConditionFields _ _ List.nodup_nil
    (show (["description", "expression", "properties"] : List String).Nodup by decide +kernel) (.inl rfl)

instance : XFieldsSafe X.taskTriggerFields := by unfold X.taskTriggerFields; infer_instance
instance : XSafe X.taskTrigger :=
  xstruct_safe X.taskTriggerFields _ _ (show (["bom-ref"] : List String).Nodup by decide +kernel)
    (show (["uid", "name", "description", "resourceReferences", "type", "event", "conditions", "timeActivated", "inputs", "outputs", "properties"] : List String).Nodup by decide +kernel) (.inl rfl)

instance : XFieldsSafe X.volumeFields := by unfold X.volumeFields; infer_instance
instance : XSafe X.volume :=
  xstruct_safe X.volumeFields _ _ List.nodup_nil
    (show (["uid", "name", "mode", "path", "sizeAllocated", "persistent", "remote", "properties"] : List String).Nodup by decide +kernel) (.inl rfl)

instance : XFieldsSafe X.taskWorkspaceFields := by unfold X.taskWorkspaceFields; infer_instance
instance : XSafe X.taskWorkspace :=
  xstruct_safe X.taskWorkspaceFields _ _ (show (["bom-ref"] : List String).Nodup by decide +kernel)
    (show (["uid", "name", "aliases", "description", "resourceReferences", "accessMode", "mountPath", "managedDataType", "volumeRequest", "volume", "properties"] : List String).Nodup by decide +kernel) (.inl rfl)

instance : XFieldsSafe X.taskFields := by unfold X.taskFields; infer_instance
instance : XSafe X.task :=
  xstruct_safe X.taskFields _ _ (show (["bom-ref"] : List String).Nodup by decide +kernel)
    (show (["uid", "name", "description", "properties", "resourceReferences", "taskTypes", "trigger", "steps", "inputs", "outputs", "timeStart", "timeEnd", "workspaces", "runtimeTopology"] : List String).Nodup by decide +kernel) (.inl rfl)

instance : XFieldsSafe X.workflowFields := by unfold X.workflowFields; infer_instance
instance : XSafe X.workflow :=
  xstruct_safe X.workflowFields _ _ (show (["bom-ref"] : List String).Nodup by decide +kernel)
    (show (["uid", "name", "description", "resourceReferences", "tasks", "taskDependencies", "taskTypes", "trigger", "steps", "inputs", "outputs", "timeStart", "timeEnd", "workspaces", "runtimeTopology", "properties"] : List String).Nodup by decide +kernel) (.inl rfl)

instance : XFieldsSafe X.formulaFields := by unfold X.formulaFields; infer_instance
instance : XSafe X.formula :=
  xstruct_safe X.formulaFields _ _ (show (["bom-ref"] : List String).Nodup by decide +kernel)
    (show (["components", "services", "workflows", "properties"] : List String).Nodup by decide +kernel) (.inl rfl)

instance : XFieldsSafe X.lifecycleFields := by unfold X.lifecycleFields; infer_instance
instance : XSafe X.lifecycle :=
  xstruct_safe X.lifecycleFields _ _ List.nodup_nil
    (show (["name", "phase", "description"] : List String).Nodup by decide +kernel) (.inl rfl)

instance : XFieldsSafe X.toolFields := by unfold X.toolFields; infer_instance
instance : XSafe X.tool :=
  xstruct_safe X.toolFields _ _ List.nodup_nil
    (show (["vendor", "name", "version", "hashes", "externalReferences"] : List String).Nodup by decide +kernel) (.inl rfl)

instance : XFieldsSafe X.toolsChoiceFields := by unfold X.toolsChoiceFields; infer_instance
instance : XFieldsLawful X.toolsChoiceRaw := by unfold X.toolsChoiceRaw; infer_instance
instance : XFieldsSafe X.toolsChoiceRaw := by unfold X.toolsChoiceRaw; infer_instance

theorem toolsChoiceRaw_nodup : X.toolsChoiceRaw.elemNames.Nodup :=
  show (["component", "service"] : List String).Nodup by decide +kernel

theorem toolsChoiceStep_safe {b : PSlice Tool × PSlice Component × PSlice Service × Unit} {ks : List Xml}
    (h : X.toolsChoiceFields.encKids b = some ks) :
    ∀ k ∈ ks, ∀ l, Spaced k l → ∀ st, X.toolsChoiceStep l st = X.toolsChoiceStep k st := by
  intro k hk y hy st
  obtain ⟨k₁, k₂, h₁, g₂, rfl⟩ := encKids_elem h
  obtain ⟨k₂, k₃, h₂, g₃, rfl⟩ := encKids_elem g₂
  obtain ⟨k₃, k₄, h₃, g₄, rfl⟩ := encKids_elem g₃
  simp only [XFields.encKids, Option.some.injEq] at g₄; subst g₄
  simp only [List.append_nil, List.mem_append] at hk
  rcases hk with hk | hk | hk
  · obtain ⟨as, js, rfl⟩ := Xml.isElem_elim (XFieldLawful.named _ k₁ h₁ k hk)
    obtain ⟨a, -, e⟩ := XField.encList_mem h₁ _ hk
    have hd := XSafe.safe _ a _ e y hy
    obtain ⟨js', rfl, -⟩ := spaced_elem.1 hy
    change ∀ old, X.tool.dec (.elem "tool" as js') old = X.tool.dec (.elem "tool" as js) old at hd
    show X.toolsChoiceStep (.elem "tool" as js') st = X.toolsChoiceStep (.elem "tool" as js) st
    simp [X.toolsChoiceStep, hd]
  · obtain ⟨js, rfl, hj⟩ := XField.nlist_enc_mem h₂ k hk
    have hr : X.toolsChoiceRaw.encKids (b.2.1, .nil, ()) = some (js ++ ([] ++ [])) := by
      simp only [X.toolsChoiceRaw, XFields.encKids]
      rw [show (XField.list "component" true X.component).enc b.2.1 = some js from hj]
      rfl
    have hd := dec_spaced X.toolsChoiceRaw rfl hy (fun k hkm l hl b =>
      XFieldsSafe.safe toolsChoiceRaw_nodup _ _ hr k (by simpa [Xml.kids] using hkm) l hl b)
    obtain ⟨js', rfl, -⟩ := spaced_elem.1 hy
    simp [X.toolsChoiceStep, hd]
  · obtain ⟨js, rfl, hj⟩ := XField.nlist_enc_mem h₃ k hk
    have hr : X.toolsChoiceRaw.encKids (.nil, b.2.2.1, ()) = some ([] ++ (js ++ [])) := by
      simp only [X.toolsChoiceRaw, XFields.encKids]
      rw [show (XField.list "service" true X.service).enc b.2.2.1 = some js from hj]
      rfl
    have hd := dec_spaced X.toolsChoiceRaw rfl hy (fun k hkm l hl b =>
      XFieldsSafe.safe toolsChoiceRaw_nodup _ _ hr k (by simpa [Xml.kids] using hkm) l hl b)
    obtain ⟨js', rfl, -⟩ := spaced_elem.1 hy
    simp [X.toolsChoiceStep, hd]

/-- What is written are the fields of the choice. -/
theorem toolsChoice_fields {n : String} {tc : ToolsChoice} {x : Xml} (h : X.toolsChoice.enc n tc = some (some x)) :
    ∃ b ks, X.toolsChoiceFields.encKids b = some ks ∧ x = .elem n [] ks := by
  simp only [X.toolsChoice] at h
  split at h
  · cases h
  · split at h
    · simp only [XCodec.struct, Option.map_eq_some_iff, Option.some.injEq] at h
      obtain ⟨ks, hk, rfl⟩ := h
      exact ⟨_, ks, hk, rfl⟩
    · split at h
      · simp only [XCodec.struct, Option.map_eq_some_iff, Option.some.injEq] at h
        obtain ⟨ks, hk, rfl⟩ := h
        exact ⟨_, ks, hk, rfl⟩
      · cases h

instance : XSafe X.toolsChoice where
  safe n tc x h y hy old := by
    obtain ⟨b, ks, hk, rfl⟩ := toolsChoice_fields h
    simp only [X.toolsChoice]
    rw [decAll_spaced (fun _ _ => rfl) (spaced_kids hy) (toolsChoiceStep_safe hk)]
  tidy n tc x hn h := by
    obtain ⟨b, ks, hk, rfl⟩ := toolsChoice_fields h
    exact tidy_elem hn (by simp) (.inl (XFieldsSafe.elems rfl _ ks hk)) (XFieldsSafe.tidy _ ks hk)

instance : XFieldsSafe X.distributionConstraintsFields := by unfold X.distributionConstraintsFields; infer_instance
instance : XSafe X.distributionConstraints :=
  xstruct_safe X.distributionConstraintsFields _ _ List.nodup_nil
    (show (["tlp"] : List String).Nodup by decide +kernel) (.inl rfl)

instance : XFieldsSafe X.metadataFields := by unfold X.metadataFields; infer_instance
instance : XSafe X.metadata :=
  xstruct_safe X.metadataFields _ _ List.nodup_nil
    (show (["timestamp", "lifecycles", "tools", "authors", "component", "manufacture", "manufacturer", "supplier", "licenses", "properties", "distributionConstraints"] : List String).Nodup by decide +kernel) (.inl rfl)

instance : XFieldsSafe X.creditsFields := by unfold X.creditsFields; infer_instance
instance : XSafe X.credits :=
  xstruct_safe X.creditsFields _ _ List.nodup_nil
    (show (["organizations", "individuals"] : List String).Nodup by decide +kernel) (.inl rfl)

instance : XFieldsSafe X.proofOfConceptFields := by unfold X.proofOfConceptFields; infer_instance
instance : XSafe X.proofOfConcept :=
  xstruct_safe X.proofOfConceptFields _ _ List.nodup_nil
    (show (["reproductionSteps", "environment", "supportingMaterial"] : List String).Nodup by decide +kernel) (.inl rfl)

instance : XFieldsSafe X.vulnerabilityAnalysisFields := by unfold X.vulnerabilityAnalysisFields; infer_instance
instance : XSafe X.vulnerabilityAnalysis :=
  xstruct_safe X.vulnerabilityAnalysisFields _ _ List.nodup_nil
    (show (["state", "justification", "responses", "detail", "firstIssued", "lastUpdated"] : List String).Nodup by decide +kernel) (.inl rfl)

instance : XFieldsSafe X.vulnerabilityRatingFields := by unfold X.vulnerabilityRatingFields; infer_instance
instance : XSafe X.vulnerabilityRating :=
  xstruct_safe X.vulnerabilityRatingFields _ _ List.nodup_nil
    (show (["source", "score", "severity", "method", "vector", "justification"] : List String).Nodup by decide +kernel) (.inl rfl)

instance : XFieldsSafe X.vulnerabilityReferenceFields := by unfold X.vulnerabilityReferenceFields; infer_instance
instance : XSafe X.vulnerabilityReference :=
  xstruct_safe X.vulnerabilityReferenceFields _ _ List.nodup_nil
    (show (["id", "source"] : List String).Nodup by decide +kernel) (.inl rfl)

instance : XFieldsSafe X.vulnerabilityFields := by unfold X.vulnerabilityFields; infer_instance
instance : XSafe X.vulnerability :=
  xstruct_safe X.vulnerabilityFields _ _ (show (["bom-ref"] : List String).Nodup by decide +kernel)
    (show (["id", "source", "references", "ratings", "cwes", "description", "detail", "recommendation", "workaround", "proofOfConcept", "advisories", "created", "published", "updated", "rejected", "credits", "tools", "analysis", "affects", "properties"] : List String).Nodup by decide +kernel) (.inl rfl)

instance : XFieldsSafe X.citationFields := by unfold X.citationFields; infer_instance
instance : XSafe X.citation :=
  xstruct_safe X.citationFields _ _ (show (["bom-ref"] : List String).Nodup by decide +kernel)
    (show (["pointers", "expressions", "timestamp", "attributedTo", "process", "note"] : List String).Nodup by decide +kernel) (.inl rfl)

instance : XFieldsSafe X.bomFields := by unfold X.bomFields; infer_instance
instance : XSafe X.bom :=
  xstruct_safe X.bomFields _ _ (show (["xmlns", "serialNumber", "version"] : List String).Nodup by decide +kernel)
    (show (["metadata", "components", "services", "externalReferences", "dependencies", "compositions", "properties", "vulnerabilities", "annotations", "formulation", "declarations", "definitions", "citations"] : List String).Nodup by decide +kernel) (.inl rfl)

end Verif
