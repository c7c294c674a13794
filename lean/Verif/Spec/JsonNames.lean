/-!
# The member names of the JSON format

GENERATED by `tools/gen_json.py` from the `json` tags of `/repo/cyclonedx.go` and the anonymous structs of
`/repo/cyclonedx_json.go`; do not edit by hand.
-/

namespace Verif.Spec

/-- Every member name that some type of the library knows. -/
def jsonNames : List String :=
  ["$schema", "abstract", "accessMode", "acknowledgement", "activationDate", "activity",
   "activityEnergyCost", "additionalContext", "address", "advisories", "affects", "affirmation",
   "aggregate", "alg", "algorithm", "algorithmFamily", "algorithmProperties", "algorithmRef", "algorithms",
   "aliases", "altIds", "analysis", "ancestors", "annotations", "annotator", "applicationNumber",
   "approach", "architectureFamily", "assemblies", "asserter", "assertionType", "assessor", "assessors",
   "assetType", "attachment", "attestations", "attributedTo", "auth", "authenticated", "author", "authors",
   "benefits", "bom-ref", "bomFormat", "callstack", "certificateExtension", "certificateExtensions",
   "certificateFileExtension", "certificateFormat", "certificatePath", "certificateProperties",
   "certificateState", "certificationLevel", "chain", "cipherSuites", "citations", "claims",
   "classicalSecurityLevel", "classification", "co2CostEquivalent", "co2CostOffset", "collection",
   "column", "commands", "comment", "commits", "committer", "commonExtensionName", "commonExtensionValue",
   "component", "components", "compositions", "concludedValue", "conditions", "confidence",
   "confidenceInterval", "conformance", "considerations", "contact", "content", "contentType", "contents",
   "copyright", "counterClaims", "counterEvidence", "country", "cpe", "created", "creationDate", "credits",
   "crv", "cryptoFunctions", "cryptoProperties", "cryptoRefArray", "curve", "custodians",
   "customExtensionName", "customExtensionValue", "cwes", "data", "dataType", "datasets",
   "deactivationDate", "declarations", "definitions", "dependencies", "dependsOn", "descendants",
   "description", "descriptions", "destination", "destructionDate", "detail", "diff",
   "distributionConstraints", "e", "ellipticCurve", "email", "encoding", "encr", "endpoints",
   "energyConsumptions", "energyProvided", "energyProviders", "energySource", "environment",
   "environmentVars", "environmentalConsiderations", "esn", "ethicalConsiderations", "event", "evidence",
   "excludes", "executed", "executionEnvironment", "expiration", "expirationDate", "expires", "expression",
   "expressionDetails", "expressions", "externalReference", "externalReferences", "fairnessAssessments",
   "familyId", "featuredImage", "field", "filingDate", "fingerprint", "firstIssued", "flow", "format",
   "formulation", "frames", "fullFilename", "function", "governance", "grantDate", "graphics", "group",
   "groupAtRisk", "harms", "hashes", "id", "identifier", "identifiers", "identity", "ikev2TransformTypes",
   "image", "implementationPlatform", "individual", "individuals", "inputs", "integ", "isExternal",
   "issuerName", "jurisdiction", "justification", "ke", "keyId", "keyLength", "kty", "lastRenewal",
   "lastUpdated", "levels", "license", "licenseIdentifier", "licenseTypes", "licensee", "licenses",
   "licensing", "licensor", "lifecycles", "line", "locale", "locality", "location", "lowerBound",
   "managedDataType", "manufacture", "manufacturer", "map", "mechanism", "members", "message", "metadata",
   "method", "methods", "mime-type", "mitigationStrategies", "mitigationStrategy", "mode",
   "modelArchitecture", "modelCard", "modelParameters", "modified", "module", "mountPath", "n", "name",
   "nistQuantumSecurityLevel", "notValidAfter", "notValidBefore", "note", "notes", "occurrences", "offset",
   "oid", "omniborId", "openCre", "organization", "organizations", "outputs", "owner", "owners", "package",
   "padding", "parameterSetIdentifier", "parameters", "parent", "patch", "patches", "patentAssertions",
   "patentAssignee", "patentExpirationDate", "patentLegalStatus", "patentNumber", "patentRefs", "patents",
   "path", "pedigree", "performanceMetrics", "performanceTradeoffs", "persistent", "phase", "phone",
   "pointers", "postOfficeBoxNumber", "postalCode", "predicate", "prf", "primitive", "priorityApplication",
   "process", "proofOfConcept", "properties", "propertyName", "protocolProperties", "provider", "provides",
   "publicKey", "publicationNumber", "published", "publisher", "purchaseOrder", "purchaser", "purl",
   "quantitativeAnalysis", "range", "ratings", "rationale", "reason", "reasoning", "recommendation", "ref",
   "references", "region", "rejected", "relatedCryptoMaterialProperties", "relatedCryptographicAssets",
   "releaseNotes", "remote", "reproductionSteps", "requirement", "requirements", "resolves", "resource",
   "resourceReferences", "response", "reviewer", "revocationDate", "role", "runtimeTopology", "scope",
   "score", "securedBy", "sensitiveData", "serialNumber", "service", "services", "severity", "signatories",
   "signature", "signatureAlgorithmRef", "signers", "size", "sizeAllocated", "slice", "socialImage",
   "source", "specVersion", "standards", "state", "statement", "status", "steps", "stewards",
   "streetAddress", "subjectName", "subjectPublicKeyRef", "subjects", "summary", "supplier",
   "supportingMaterial", "swhid", "swid", "symbol", "tagId", "tagVersion", "tags", "target", "targets",
   "task", "taskDependencies", "taskTypes", "tasks", "technicalLimitations", "technique", "text",
   "thirdParty", "timeActivated", "timeEnd", "timeReceived", "timeStart", "timestamp", "title", "tlp",
   "tlsGroups", "tlsSignatureSchemes", "tools", "trigger", "trustZone", "type", "uid", "unit",
   "updateDate", "updated", "upperBound", "url", "useCases", "users", "value", "variants", "vector",
   "vendor", "version", "versionRange", "versions", "volume", "volumeRequest", "vulnerabilities",
   "workaround", "workflows", "workspaces", "x", "x-trust-boundary", "y"]

end Verif.Spec
