import Verif.Spec.Locate
import Verif.Spec.Gating

/-!
# What a conversion may do to a document (properties C21 and C46)

Generated by tools/gen_keeps.py from the struct declarations in /repo/cyclonedx.go and a table of schema
versions.

`KeepsX v a b` says that `a` is what `b` may become in a document of version `v`: every field of `a` has the
value it has in `b`, or the schemas have that member only in versions after `v` and it is empty in `a`; lists
have related entries in the same order, and so on for nested values.  A few fields have a documented default.
So nothing is invented (C21), and nothing that version `v` has is lost (C46).
-/

namespace Verif.Spec

/-- Two lists with related entries. -/
inductive All2 {α β : Type} (R : α → β → Prop) : List α → List β → Prop where
  | nil : All2 R [] []
  | cons {x xs y ys} : R x y → All2 R xs ys → All2 R (x :: xs) (y :: ys)

/-- `xs` is a sub-list of `ys`, each entry related to the one it comes from. -/
inductive Sub {α β : Type} (R : α → β → Prop) : List α → List β → Prop where
  | nil : Sub R [] []
  | skip {xs y ys} : Sub R xs ys → Sub R xs (y :: ys)
  | keep {x xs y ys} : R x y → Sub R xs ys → Sub R (x :: xs) (y :: ys)

/-- A value kept, or erased because its member is newer than `v`. -/
def Erased {α : Type} (v since : Int) (zero a b : α) : Prop := a = b ∨ (v < since ∧ a = zero)

/-- Optional values: present in both or in none. -/
def SameO {α β : Type} (R : α → β → Prop) (p : Option α) (q : Option β) : Prop :=
  (p = none ∧ q = none) ∨ ∃ a b, p = some a ∧ q = some b ∧ R a b

/-- An optional value kept or erased because its member is newer than `v`. -/
def ErasedO {α : Type} (R : α → α → Prop) (v since : Int) (p q : Option α) : Prop :=
  SameO R p q ∨ (v < since ∧ p = none)

/-- A list kept or erased because its member is newer than `v`. -/
def ErasedP {α : Type} (R : α → α → Prop) (v since : Int) (p q : PSlice α) : Prop :=
  SameList R p q ∨ (v < since ∧ p = .nil)

/-- Exactly the hashes with an algorithm of version `v` are kept. -/
def HashesKept (v : Int) (p q : PSlice Hash) : Prop :=
  (q = .nil ↔ p = .nil) ∧ ∃ keep : Hash → Bool, (∀ x, keep x = true ↔ Known hashAlgorithmSince v x.algorithm) ∧
    p.elems = q.elems.filter keep

/-- The identities of an evidence value, in a list or single. -/
def identityList (i : Option EvidenceIdentityChoice) : List EvidenceIdentity :=
  match i with
  | none => []
  | some ch => if ch.identities.isNil then ch.identity.toList else ch.identities.elems

/-- cyclonedx.go:1211-1216 -/
structure KeepsOrganizationalContact (v : Int) (a b : OrganizationalContact) : Prop where
  bomRef : Erased v SpecVersion1_5 "" a.bomRef b.bomRef
  name : a.name = b.name
  email : a.email = b.email
  phone : a.phone = b.phone

/-- cyclonedx.go:1218-1224 -/
structure KeepsOrganizationalEntity (v : Int) (a b : OrganizationalEntity) : Prop where
  bomRef : Erased v SpecVersion1_5 "" a.bomRef b.bomRef
  name : a.name = b.name
  address : Erased v SpecVersion1_6 none a.address b.address
  url : a.url = b.url
  contact : SameList (KeepsOrganizationalContact v) a.contact b.contact

/-- cyclonedx.go:321-328 -/
structure KeepsComposition (v : Int) (a b : Composition) : Prop where
  bomRef : Erased v SpecVersion1_5 "" a.bomRef b.bomRef
  aggregate : a.aggregate = b.aggregate ∨ (a.aggregate = "unknown" ∧ (¬ Known aggregateSince v b.aggregate))
  assemblies : a.assemblies = b.assemblies
  dependencies : a.dependencies = b.dependencies
  vulnerabilities : Erased v SpecVersion1_5 .nil a.vulnerabilities b.vulnerabilities
  signature : a.signature = b.signature

/-- cyclonedx.go:551-559 -/
structure KeepsDataClassification (v : Int) (a b : DataClassification) : Prop where
  flow : a.flow = b.flow
  classification : a.classification = b.classification
  name : Erased v SpecVersion1_6 "" a.name b.name
  description : Erased v SpecVersion1_6 "" a.description b.description
  governance : Erased v SpecVersion1_6 none a.governance b.governance
  source : Erased v SpecVersion1_6 .nil a.source b.source
  destination : Erased v SpecVersion1_6 .nil a.destination b.destination

/-- cyclonedx.go:740-746 -/
structure KeepsExternalReference (v : Int) (a b : ExternalReference) : Prop where
  url : a.url = b.url
  comment : a.comment = b.comment
  hashes : Erased v SpecVersion1_3 .nil a.hashes b.hashes
  type : a.type = b.type ∨ (a.type = "other" ∧ (¬ Known externalReferenceTypeSince v b.type))
  properties : Erased v SpecVersion1_7 .nil a.properties b.properties

/-- cyclonedx.go:1226-1229 -/
structure KeepsOrganizationalEntityOrContact (v : Int) (a b : OrganizationalEntityOrContact) : Prop where
  organization : SameO (KeepsOrganizationalEntity v) a.organization b.organization
  individual : a.individual = b.individual

/-- cyclonedx.go:995-1004 -/
structure KeepsLicensing (v : Int) (a b : Licensing) : Prop where
  altIDs : a.altIDs = b.altIDs
  licensor : SameO (KeepsOrganizationalEntityOrContact v) a.licensor b.licensor
  licensee : SameO (KeepsOrganizationalEntityOrContact v) a.licensee b.licensee
  purchaser : SameO (KeepsOrganizationalEntityOrContact v) a.purchaser b.purchaser
  purchaseOrder : a.purchaseOrder = b.purchaseOrder
  licenseTypes : a.licenseTypes = b.licenseTypes
  lastRenewal : a.lastRenewal = b.lastRenewal
  expiration : a.expiration = b.expiration

/-- cyclonedx.go:936-945 -/
structure KeepsLicense (v : Int) (a b : License) : Prop where
  bomRef : Erased v SpecVersion1_5 "" a.bomRef b.bomRef
  id : a.id = b.id
  name : a.name = b.name
  acknowledgement : Erased v SpecVersion1_6 "" a.acknowledgement b.acknowledgement
  text : Erased v SpecVersion1_1 none a.text b.text
  url : Erased v SpecVersion1_1 "" a.url b.url
  licensing : ErasedO (KeepsLicensing v) v SpecVersion1_5 a.licensing b.licensing
  properties : Erased v SpecVersion1_5 .nil a.properties b.properties

/-- cyclonedx.go:956-964 -/
structure KeepsLicenseChoice (v : Int) (a b : LicenseChoice) : Prop where
  license : SameO (KeepsLicense v) a.license b.license
  expression : Erased v SpecVersion1_1 "" a.expression b.expression
  expressionDetails : Erased v SpecVersion1_7 .nil a.expressionDetails b.expressionDetails
  acknowledgement : a.acknowledgement = b.acknowledgement
  bomRef : a.bomRef = b.bomRef
  licensing : Erased v SpecVersion1_7 none a.licensing b.licensing
  properties : Erased v SpecVersion1_7 .nil a.properties b.properties

/-- License lists: below 1.1 exactly the entries whose license has an id or a name are kept; otherwise all. -/
def LicensesKept (v : Int) (p q : PSlice LicenseChoice) : Prop :=
  (q = .nil ↔ p = .nil) ∧
  (SpecVersion1_1 ≤ v → SameList (KeepsLicenseChoice v) p q) ∧
  (v < SpecVersion1_1 → ∃ keep : LicenseChoice → Bool,
    (∀ c, keep c = true ↔ ∃ l, c.license = some l ∧ (l.id ≠ "" ∨ l.name ≠ "")) ∧
    All2 (KeepsLicenseChoice v) p.elems (q.elems.filter keep))


/-- cyclonedx.go:731-738 -/
structure KeepsEvidenceOccurrence (v : Int) (a b : EvidenceOccurrence) : Prop where
  bomRef : a.bomRef = b.bomRef
  location : a.location = b.location
  line : Erased v SpecVersion1_6 none a.line b.line
  offset : Erased v SpecVersion1_6 none a.offset b.offset
  symbol : Erased v SpecVersion1_6 "" a.symbol b.symbol
  additionalContext : Erased v SpecVersion1_6 "" a.additionalContext b.additionalContext

/-- cyclonedx.go:688-694 -/
structure KeepsEvidenceIdentity (v : Int) (a b : EvidenceIdentity) : Prop where
  field : a.field = b.field
  confidence : a.confidence = b.confidence
  concludedValue : Erased v SpecVersion1_6 "" a.concludedValue b.concludedValue
  methods : a.methods = b.methods
  tools : a.tools = b.tools

/-- cyclonedx.go:672-678 -/
structure KeepsEvidence (v : Int) (a b : Evidence) : Prop where
  identity : (SpecVersion1_6 ≤ v → a.identity = b.identity) ∧
    (v < SpecVersion1_6 → Sub (KeepsEvidenceIdentity v) (identityList a.identity) (identityList b.identity)) ∧
    (SpecVersion1_5 ≤ v → identityList a.identity = [] → identityList b.identity = [])
  occurrences : ErasedP (KeepsEvidenceOccurrence v) v SpecVersion1_5 a.occurrences b.occurrences
  callstack : Erased v SpecVersion1_5 none a.callstack b.callstack
  licenses : LicensesKept v a.licenses b.licenses
  copyright : a.copyright = b.copyright

/-- cyclonedx.go:1072-1080 -/
structure KeepsMLModelCardConsiderations (v : Int) (a b : MLModelCardConsiderations) : Prop where
  users : a.users = b.users
  useCases : a.useCases = b.useCases
  technicalLimitations : a.technicalLimitations = b.technicalLimitations
  performanceTradeoffs : a.performanceTradeoffs = b.performanceTradeoffs
  ethicalConsiderations : a.ethicalConsiderations = b.ethicalConsiderations
  environmentalConsiderations : Erased v SpecVersion1_6 none a.environmentalConsiderations b.environmentalConsiderations
  fairnessAssessments : a.fairnessAssessments = b.fairnessAssessments

/-- cyclonedx.go:1065-1070 -/
structure KeepsMLModelCard (v : Int) (a b : MLModelCard) : Prop where
  bomRef : a.bomRef = b.bomRef
  modelParameters : a.modelParameters = b.modelParameters
  quantitativeAnalysis : a.quantitativeAnalysis = b.quantitativeAnalysis
  considerations : SameO (KeepsMLModelCardConsiderations v) a.considerations b.considerations

/-- cyclonedx.go:368-382 -/
structure KeepsCryptoAlgorithmProperties (v : Int) (a b : CryptoAlgorithmProperties) : Prop where
  primitive : a.primitive = b.primitive ∨ (a.primitive = "" ∧ (¬ Known cryptoPrimitiveSince v b.primitive))
  parameterSetIdentifier : a.parameterSetIdentifier = b.parameterSetIdentifier
  algorithmFamily : Erased v SpecVersion1_7 "" a.algorithmFamily b.algorithmFamily
  curve : a.curve = b.curve
  ellipticCurve : Erased v SpecVersion1_7 "" a.ellipticCurve b.ellipticCurve
  executionEnvironment : a.executionEnvironment = b.executionEnvironment
  implementationPlatform : a.implementationPlatform = b.implementationPlatform
  certificationLevel : a.certificationLevel = b.certificationLevel
  mode : a.mode = b.mode
  padding : a.padding = b.padding
  cryptoFunctions : a.cryptoFunctions = b.cryptoFunctions
  classicalSecurityLevel : a.classicalSecurityLevel = b.classicalSecurityLevel
  nistQuantumSecurityLevel : a.nistQuantumSecurityLevel = b.nistQuantumSecurityLevel

/-- cyclonedx.go:171-191 -/
structure KeepsCertificateProperties (v : Int) (a b : CertificateProperties) : Prop where
  serialNumber : Erased v SpecVersion1_7 "" a.serialNumber b.serialNumber
  subjectName : a.subjectName = b.subjectName
  issuerName : a.issuerName = b.issuerName
  notValidBefore : a.notValidBefore = b.notValidBefore
  notValidAfter : a.notValidAfter = b.notValidAfter
  signatureAlgorithmRef : a.signatureAlgorithmRef = b.signatureAlgorithmRef
  subjectPublicKeyRef : a.subjectPublicKeyRef = b.subjectPublicKeyRef
  certificateFormat : a.certificateFormat = b.certificateFormat
  certificateExtension : a.certificateExtension = b.certificateExtension
  certificateFileExtension : Erased v SpecVersion1_7 "" a.certificateFileExtension b.certificateFileExtension
  fingerprint : Erased v SpecVersion1_7 none a.fingerprint b.fingerprint
  certificateState : Erased v SpecVersion1_7 .nil a.certificateState b.certificateState
  certificateExtensions : Erased v SpecVersion1_7 .nil a.certificateExtensions b.certificateExtensions
  relatedCryptographicAssets : Erased v SpecVersion1_7 .nil a.relatedCryptographicAssets b.relatedCryptographicAssets
  creationDate : Erased v SpecVersion1_7 "" a.creationDate b.creationDate
  activationDate : Erased v SpecVersion1_7 "" a.activationDate b.activationDate
  deactivationDate : Erased v SpecVersion1_7 "" a.deactivationDate b.deactivationDate
  revocationDate : Erased v SpecVersion1_7 "" a.revocationDate b.revocationDate
  destructionDate : Erased v SpecVersion1_7 "" a.destructionDate b.destructionDate

/-- cyclonedx.go:1282-1297 -/
structure KeepsRelatedCryptoMaterialProperties (v : Int) (a b : RelatedCryptoMaterialProperties) : Prop where
  type : a.type = b.type
  id : a.id = b.id
  state : a.state = b.state
  algorithmRef : a.algorithmRef = b.algorithmRef
  creationDate : a.creationDate = b.creationDate
  activationDate : a.activationDate = b.activationDate
  updateDate : a.updateDate = b.updateDate
  expirationDate : a.expirationDate = b.expirationDate
  value : a.value = b.value
  size : a.size = b.size
  format : a.format = b.format
  securedBy : a.securedBy = b.securedBy
  fingerprint : Erased v SpecVersion1_7 none a.fingerprint b.fingerprint
  relatedCryptographicAssets : Erased v SpecVersion1_7 .nil a.relatedCryptographicAssets b.relatedCryptographicAssets

/-- cyclonedx.go:205-211 -/
structure KeepsCipherSuite (v : Int) (a b : CipherSuite) : Prop where
  name : a.name = b.name
  algorithms : a.algorithms = b.algorithms
  identifiers : a.identifiers = b.identifiers
  tlsGroups : Erased v SpecVersion1_7 .nil a.tlsGroups b.tlsGroups
  tlsSignatureSchemes : Erased v SpecVersion1_7 .nil a.tlsSignatureSchemes b.tlsSignatureSchemes

/-- cyclonedx.go:509-516 -/
structure KeepsCryptoProtocolProperties (v : Int) (a b : CryptoProtocolProperties) : Prop where
  type : a.type = b.type ∨ (a.type = "" ∧ (¬ Known protocolTypeSince v b.type))
  version : a.version = b.version
  cipherSuites : SameList (KeepsCipherSuite v) a.cipherSuites b.cipherSuites
  ikev2TransformTypes : a.ikev2TransformTypes = b.ikev2TransformTypes
  cryptoRefArray : a.cryptoRefArray = b.cryptoRefArray
  relatedCryptographicAssets : Erased v SpecVersion1_7 .nil a.relatedCryptographicAssets b.relatedCryptographicAssets

/-- cyclonedx.go:500-507 -/
structure KeepsCryptoProperties (v : Int) (a b : CryptoProperties) : Prop where
  assetType : a.assetType = b.assetType
  algorithmProperties : SameO (KeepsCryptoAlgorithmProperties v) a.algorithmProperties b.algorithmProperties
  certificateProperties : SameO (KeepsCertificateProperties v) a.certificateProperties b.certificateProperties
  relatedCryptoMaterialProperties : SameO (KeepsRelatedCryptoMaterialProperties v) a.relatedCryptoMaterialProperties b.relatedCryptoMaterialProperties
  protocolProperties : SameO (KeepsCryptoProtocolProperties v) a.protocolProperties b.protocolProperties
  oid : a.oid = b.oid

/-- cyclonedx.go:1252-1259 -/
structure KeepsPedigree (v : Int) (a b : Pedigree Component) : Prop where
  commits : a.commits = b.commits
  patches : Erased v SpecVersion1_2 .nil a.patches b.patches
  notes : a.notes = b.notes

/-- cyclonedx.go:239-276 -/
structure KeepsComponent (v : Int) (a b : Component) : Prop where
  bomRef : Erased v SpecVersion1_1 "" a.bomRef b.bomRef
  mimeType : Erased v SpecVersion1_2 "" a.mimeType b.mimeType
  type : a.type = b.type ∨ (a.type = "application" ∧ (¬ Known componentTypeSince v b.type ∨ b.type = "cryptographic-asset"))
  supplier : Erased v SpecVersion1_2 none a.supplier b.supplier
  manufacturer : Erased v SpecVersion1_6 none a.manufacturer b.manufacturer
  author : Erased v SpecVersion1_2 "" a.author b.author
  authors : Erased v SpecVersion1_6 .nil a.authors b.authors
  publisher : a.publisher = b.publisher
  group : a.group = b.group
  name : a.name = b.name
  version : a.version = b.version ∨ (v < SpecVersion1_4 ∧ b.version = "" ∧ a.version = "0.0.0")
  description : a.description = b.description
  scope : a.scope = b.scope ∨ (a.scope = "" ∧ (¬ Known scopeSince v b.scope ∨ (b.scope = "excluded" ∧ v < SpecVersion1_2)))
  hashes : HashesKept v a.hashes b.hashes
  licenses : LicensesKept v a.licenses b.licenses
  copyright : a.copyright = b.copyright
  cpe : a.cpe = b.cpe
  packageURL : a.packageURL = b.packageURL
  omniborID : Erased v SpecVersion1_6 .nil a.omniborID b.omniborID
  swhid : Erased v SpecVersion1_6 .nil a.swhid b.swhid
  swid : Erased v SpecVersion1_2 none a.swid b.swid
  modified : a.modified = b.modified ∨ (v < SpecVersion1_1 ∧ b.modified = none ∧ a.modified = some false)
  pedigree : ErasedO (KeepsPedigree v) v SpecVersion1_1 a.pedigree b.pedigree
  externalReferences : ErasedP (KeepsExternalReference v) v SpecVersion1_1 a.externalReferences b.externalReferences
  properties : Erased v SpecVersion1_3 .nil a.properties b.properties
  evidence : ErasedO (KeepsEvidence v) v SpecVersion1_3 a.evidence b.evidence
  releaseNotes : Erased v SpecVersion1_4 none a.releaseNotes b.releaseNotes
  modelCard : ErasedO (KeepsMLModelCard v) v SpecVersion1_5 a.modelCard b.modelCard
  data : Erased v SpecVersion1_5 .nil a.data b.data
  cryptoProperties : ErasedO (KeepsCryptoProperties v) v SpecVersion1_6 a.cryptoProperties b.cryptoProperties
  tags : Erased v SpecVersion1_6 .nil a.tags b.tags
  isExternal : Erased v SpecVersion1_7 none a.isExternal b.isExternal
  patentAssertions : Erased v SpecVersion1_7 .nil a.patentAssertions b.patentAssertions
  versionRange : Erased v SpecVersion1_7 "" a.versionRange b.versionRange
  signature : a.signature = b.signature

/-- Paths without pedigree steps. -/
def Plain (path : List Step) : Prop := ∀ s ∈ path, ∃ i, s = .child i

/-- `KeepsComponent` for a component and all components nested in it, through `components` or - from 1.1 on,
when they exist - a pedigree. -/
def KeepsComponentTree (v : Int) (a b : Component) : Prop :=
  ∀ path, (∀ d, walk b path = some d → Plain path ∨ SpecVersion1_1 ≤ v →
      ∃ c, walk a path = some c ∧ KeepsComponent v c d) ∧
    (walk b path = none → walk a path = none)


/-- cyclonedx.go:1362-1382 -/
structure KeepsService (v : Int) (a b : Service) : Prop where
  bomRef : a.bomRef = b.bomRef
  provider : SameO (KeepsOrganizationalEntity v) a.provider b.provider
  group : a.group = b.group
  name : a.name = b.name
  version : a.version = b.version
  description : a.description = b.description
  endpoints : a.endpoints = b.endpoints
  authenticated : a.authenticated = b.authenticated
  crossesTrustBoundary : a.crossesTrustBoundary = b.crossesTrustBoundary
  data : SameList (KeepsDataClassification v) a.data b.data
  licenses : a.licenses = b.licenses
  externalReferences : SameList (KeepsExternalReference v) a.externalReferences b.externalReferences
  properties : Erased v SpecVersion1_3 .nil a.properties b.properties
  releaseNotes : Erased v SpecVersion1_4 none a.releaseNotes b.releaseNotes
  tags : a.tags = b.tags
  trustZone : Erased v SpecVersion1_5 "" a.trustZone b.trustZone
  patentAssertions : Erased v SpecVersion1_7 .nil a.patentAssertions b.patentAssertions
  signature : a.signature = b.signature

/-- `KeepsService` for a service and all services nested in it. -/
def KeepsServiceTree (v : Int) (a b : Service) : Prop :=
  ∀ path, (∀ t, walkService b path = some t → ∃ s, walkService a path = some s ∧ KeepsService v s t) ∧
    (walkService b path = none → walkService a path = none)


/-- cyclonedx.go:1594-1600 -/
structure KeepsTool (v : Int) (a b : Tool) : Prop where
  vendor : a.vendor = b.vendor
  name : a.name = b.name
  version : a.version = b.version
  hashes : HashesKept v a.hashes b.hashes
  externalReferences : ErasedP (KeepsExternalReference v) v SpecVersion1_4 a.externalReferences b.externalReferences

/-- A tool made from a component. -/
structure ToolFromComponent (v : Int) (a : Tool) (b : Component) : Prop where
  vendor : (b.supplier = none ∧ a.vendor = b.author) ∨ ∃ s, b.supplier = some s ∧ a.vendor = s.name
  name : a.name = b.name
  version : a.version = b.version
  hashes : HashesKept v a.hashes b.hashes
  externalReferences : ErasedP (KeepsExternalReference v) v SpecVersion1_4 a.externalReferences b.externalReferences

/-- A tool made from a service. -/
structure ToolFromService (v : Int) (a : Tool) (b : Service) : Prop where
  vendor : (b.provider = none ∧ a.vendor = "") ∨ ∃ p, b.provider = some p ∧ a.vendor = p.name
  name : a.name = b.name
  version : a.version = b.version
  hashes : a.hashes = .nil
  externalReferences : ErasedP (KeepsExternalReference v) v SpecVersion1_4 a.externalReferences b.externalReferences

/-- What a service used as a tool keeps from 1.5 on (nothing of it is removed except from its provider). -/
def KeepsToolService (v : Int) (a b : Service) : Prop :=
  ∃ p, SameO (KeepsOrganizationalEntity v) p b.provider ∧ a = { b with provider := p }

/-- Tools: from 1.5 on the same representation; before, one tool for each tool, component and service of the
original, in that order. -/
def KeepsTools (v : Int) (a b : ToolsChoice) : Prop :=
  (SpecVersion1_5 ≤ v → SameList (KeepsTool v) a.tools b.tools ∧ a.components = b.components ∧
    SameList (KeepsToolService v) a.services b.services) ∧
  (v < SpecVersion1_5 → a.components = .nil ∧ a.services = .nil ∧ ∃ x y z, a.tools.elems = x ++ y ++ z ∧
    All2 (KeepsTool v) x b.tools.elems ∧ All2 (ToolFromComponent v) y b.components.elems ∧
    All2 (ToolFromService v) z b.services.elems)


/-- cyclonedx.go:1658-1665 -/
structure KeepsVulnerabilityAnalysis (v : Int) (a b : VulnerabilityAnalysis) : Prop where
  state : a.state = b.state
  justification : a.justification = b.justification
  response : a.response = b.response
  detail : a.detail = b.detail
  firstIssued : Erased v SpecVersion1_5 "" a.firstIssued b.firstIssued
  lastUpdated : Erased v SpecVersion1_5 "" a.lastUpdated b.lastUpdated

/-- cyclonedx.go:1667-1674 -/
structure KeepsVulnerabilityRating (v : Int) (a b : VulnerabilityRating) : Prop where
  source : a.source = b.source
  score : a.score = b.score
  severity : a.severity = b.severity
  method : a.method = b.method ∨ (a.method = "other" ∧ (¬ Known scoringMethodSince v b.method))
  vector : a.vector = b.vector
  justification : a.justification = b.justification

/-- cyclonedx.go:349-352 -/
structure KeepsCredits (v : Int) (a b : Credits) : Prop where
  organizations : SameList (KeepsOrganizationalEntity v) a.organizations b.organizations
  individuals : SameList (KeepsOrganizationalContact v) a.individuals b.individuals

/-- cyclonedx.go:1634-1656 -/
structure KeepsVulnerability (v : Int) (a b : Vulnerability) : Prop where
  bomRef : a.bomRef = b.bomRef
  id : a.id = b.id
  source : a.source = b.source
  references : a.references = b.references
  ratings : SameList (KeepsVulnerabilityRating v) a.ratings b.ratings
  cwes : a.cwes = b.cwes
  description : a.description = b.description
  detail : a.detail = b.detail
  recommendation : a.recommendation = b.recommendation
  workaround : Erased v SpecVersion1_5 "" a.workaround b.workaround
  proofOfConcept : Erased v SpecVersion1_5 none a.proofOfConcept b.proofOfConcept
  advisories : a.advisories = b.advisories
  created : a.created = b.created
  published : a.published = b.published
  updated : a.updated = b.updated
  rejected : Erased v SpecVersion1_5 "" a.rejected b.rejected
  credits : SameO (KeepsCredits v) a.credits b.credits
  tools : SameO (KeepsTools v) a.tools b.tools
  analysis : SameO (KeepsVulnerabilityAnalysis v) a.analysis b.analysis
  affects : a.affects = b.affects
  properties : a.properties = b.properties

/-- cyclonedx.go:60-65 -/
structure KeepsAnnotator (v : Int) (a b : Annotator) : Prop where
  organization : SameO (KeepsOrganizationalEntity v) a.organization b.organization
  individual : a.individual = b.individual
  component : a.component = b.component
  service : SameO (KeepsServiceTree v) a.service b.service

/-- cyclonedx.go:51-58 -/
structure KeepsAnnotation (v : Int) (a b : Annotation) : Prop where
  bomRef : a.bomRef = b.bomRef
  subjects : a.subjects = b.subjects
  annotator : SameO (KeepsAnnotator v) a.annotator b.annotator
  timestamp : a.timestamp = b.timestamp
  text : a.text = b.text
  signature : a.signature = b.signature

/-- cyclonedx.go:598-601 -/
structure KeepsDefinitions (v : Int) (a b : Definitions) : Prop where
  standards : a.standards = b.standards
  patents : Erased v SpecVersion1_7 .nil a.patents b.patents

/-- cyclonedx.go:644-648 -/
structure KeepsDependency (v : Int) (a b : Dependency) : Prop where
  ref : a.ref = b.ref
  dependencies : a.dependencies = b.dependencies
  provides : Erased v SpecVersion1_6 .nil a.provides b.provides

/-- cyclonedx.go:1042-1054 -/
structure KeepsMetadata (v : Int) (a b : Metadata) : Prop where
  timestamp : a.timestamp = b.timestamp
  lifecycles : Erased v SpecVersion1_5 .nil a.lifecycles b.lifecycles
  tools : SameO (KeepsTools v) a.tools b.tools
  authors : SameList (KeepsOrganizationalContact v) a.authors b.authors
  component : SameO (KeepsComponentTree v) a.component b.component
  manufacture : SameO (KeepsOrganizationalEntity v) a.manufacture b.manufacture
  manufacturer : Erased v SpecVersion1_6 none a.manufacturer b.manufacturer
  supplier : SameO (KeepsOrganizationalEntity v) a.supplier b.supplier
  licenses : LicensesKept v a.licenses b.licenses ∨ (v < SpecVersion1_3 ∧ a.licenses = .nil)
  properties : Erased v SpecVersion1_3 .nil a.properties b.properties
  distributionConstraints : Erased v SpecVersion1_7 none a.distributionConstraints b.distributionConstraints

/-- cyclonedx.go:105-131 -/
structure KeepsBOM (v : Int) (a b : BOM) : Prop where
  xmlName : a.xmlName = b.xmlName
  bomFormat : a.bomFormat = b.bomFormat
  serialNumber : Erased v SpecVersion1_1 "" a.serialNumber b.serialNumber
  version : a.version = b.version
  metadata : ErasedO (KeepsMetadata v) v SpecVersion1_2 a.metadata b.metadata
  components : SameList (KeepsComponentTree v) a.components b.components
  services : ErasedP (KeepsServiceTree v) v SpecVersion1_2 a.services b.services
  externalReferences : ErasedP (KeepsExternalReference v) v SpecVersion1_1 a.externalReferences b.externalReferences
  dependencies : ErasedP (KeepsDependency v) v SpecVersion1_2 a.dependencies b.dependencies
  compositions : ErasedP (KeepsComposition v) v SpecVersion1_3 a.compositions b.compositions
  properties : a.properties = b.properties
  vulnerabilities : ErasedP (KeepsVulnerability v) v SpecVersion1_4 a.vulnerabilities b.vulnerabilities
  annotations : ErasedP (KeepsAnnotation v) v SpecVersion1_5 a.annotations b.annotations
  formulation : Erased v SpecVersion1_5 .nil a.formulation b.formulation
  declarations : Erased v SpecVersion1_6 none a.declarations b.declarations
  definitions : ErasedO (KeepsDefinitions v) v SpecVersion1_6 a.definitions b.definitions
  citations : Erased v SpecVersion1_7 .nil a.citations b.citations
  signature : a.signature = b.signature

end Verif.Spec
