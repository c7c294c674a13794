import Verif.Model.Prelude

/-!
# The data types of the library

GENERATED by `tools/gen_types.py` from `/repo/cyclonedx.go`; do not edit by hand.
One structure per Go struct, one field per Go field in the order of the Go declaration; the comment of
every structure cites the lines it models.  Representation: `*T` is `Option T`; `*[]T` is `PSlice T`
(which tells a nil pointer, a pointer to a nil slice and a pointer to a list apart); named string types
are `String` except `BOMReference`, which has its own marshaler; `int` and the
named `int` types are `Int`; `float32`/`float64`
are bit patterns.  Every field defaults to Go's zero value.
-/

namespace Verif

/-- cyclonedx.go:143 `type BOMFileFormat int` -/
abbrev BOMFileFormat := Int
/-- cyclonedx.go:213 `type ComponentType string` -/
abbrev ComponentType := String
/-- cyclonedx.go:311 `type ComponentDataType string` -/
abbrev ComponentDataType := String
/-- cyclonedx.go:330 `type CompositionAggregate string` -/
abbrev CompositionAggregate := String
/-- cyclonedx.go:354 `type CryptoAlgorithmMode string` -/
abbrev CryptoAlgorithmMode := String
/-- cyclonedx.go:384 `type CryptoAssetType string` -/
abbrev CryptoAssetType := String
/-- cyclonedx.go:393 `type CryptoCertificationLevel string` -/
abbrev CryptoCertificationLevel := String
/-- cyclonedx.go:427 `type CryptoExecutionEnvironment string` -/
abbrev CryptoExecutionEnvironment := String
/-- cyclonedx.go:438 `type CryptoFunction string` -/
abbrev CryptoFunction := String
/-- cyclonedx.go:456 `type CryptoKeyState string` -/
abbrev CryptoKeyState := String
/-- cyclonedx.go:467 `type CryptoPadding string` -/
abbrev CryptoPadding := String
/-- cyclonedx.go:479 `type CryptoPrimitive string` -/
abbrev CryptoPrimitive := String
/-- cyclonedx.go:518 `type CryptoProtocolType string` -/
abbrev CryptoProtocolType := String
/-- cyclonedx.go:561 `type DataFlow string` -/
abbrev DataFlow := String
/-- cyclonedx.go:696 `type EvidenceIdentityFieldType string` -/
abbrev EvidenceIdentityFieldType := String
/-- cyclonedx.go:716 `type EvidenceIdentityTechnique string` -/
abbrev EvidenceIdentityTechnique := String
/-- cyclonedx.go:748 `type ExternalReferenceType string` -/
abbrev ExternalReferenceType := String
/-- cyclonedx.go:813 `type HashAlgorithm string` -/
abbrev HashAlgorithm := String
/-- cyclonedx.go:838 `type ImpactAnalysisJustification string` -/
abbrev ImpactAnalysisJustification := String
/-- cyclonedx.go:852 `type ImpactAnalysisResponse string` -/
abbrev ImpactAnalysisResponse := String
/-- cyclonedx.go:862 `type ImpactAnalysisState string` -/
abbrev ImpactAnalysisState := String
/-- cyclonedx.go:873 `type ImplementationPlatform string` -/
abbrev ImplementationPlatform := String
/-- cyclonedx.go:901 `type IssueType string` -/
abbrev IssueType := String
/-- cyclonedx.go:947 `type LicenseAcknowledgement string` -/
abbrev LicenseAcknowledgement := String
/-- cyclonedx.go:974 `type LicenseType string` -/
abbrev LicenseType := String
/-- cyclonedx.go:1012 `type LifecyclePhase string` -/
abbrev LifecyclePhase := String
/-- cyclonedx.go:1026 `type MediaType int` -/
abbrev MediaType := Int
/-- cyclonedx.go:1104 `type MLModelCO2Unit string` -/
abbrev MLModelCO2Unit := String
/-- cyclonedx.go:1117 `type MLModelEnergyConsumptionActivity string` -/
abbrev MLModelEnergyConsumptionActivity := String
/-- cyclonedx.go:1145 `type MLModelEnergySource string` -/
abbrev MLModelEnergySource := String
/-- cyclonedx.go:1161 `type MLModelEnergyUnit string` -/
abbrev MLModelEnergyUnit := String
/-- cyclonedx.go:1179 `type MLModelParametersApproachType string` -/
abbrev MLModelParametersApproachType := String
/-- cyclonedx.go:1243 `type PatchType string` -/
abbrev PatchType := String
/-- cyclonedx.go:1299 `type RelatedCryptoMaterialType string` -/
abbrev RelatedCryptoMaterialType := String
/-- cyclonedx.go:1342 `type Scope string` -/
abbrev Scope := String
/-- cyclonedx.go:1350 `type ScoringMethod string` -/
abbrev ScoringMethod := String
/-- cyclonedx.go:1384 `type Severity string` -/
abbrev Severity := String
/-- cyclonedx.go:1403 `type SpecVersion int` -/
abbrev SpecVersion := Int
/-- cyclonedx.go:1503 `type TaskOutputType string` -/
abbrev TaskOutputType := String
/-- cyclonedx.go:1542 `type TaskTriggerType string` -/
abbrev TaskTriggerType := String
/-- cyclonedx.go:1551 `type TaskType string` -/
abbrev TaskType := String
/-- cyclonedx.go:1583 `type TaskWorkspaceAccessMode string` -/
abbrev TaskWorkspaceAccessMode := String
/-- cyclonedx.go:1627 `type VolumeMode string` -/
abbrev VolumeMode := String
/-- cyclonedx.go:1681 `type VulnerabilityStatus string` -/
abbrev VulnerabilityStatus := String
/-- cyclonedx.go:1724 `type PatentLegalStatus string` -/
abbrev PatentLegalStatus := String
/-- cyclonedx.go:1788 `type PatentAssertionType string` -/
abbrev PatentAssertionType := String
/-- cyclonedx.go:1814 `type TLPClassification string` -/
abbrev TLPClassification := String
/-- cyclonedx.go:1893 `type CertificateStateType string` -/
abbrev CertificateStateType := String
/-- cyclonedx.go:1925 `type CertificateExtensionName string` -/
abbrev CertificateExtensionName := String

/-- cyclonedx.go:155 `type BOMReference string` -/
structure BOMReference where
  val : String := ""

/-- cyclonedx.go:35-38 -/
structure Advisory where
  title : String := ""
  url : String := ""

/-- cyclonedx.go:40-44 -/
structure AffectedVersions where
  version : String := ""
  range : String := ""
  status : VulnerabilityStatus := ""

/-- cyclonedx.go:46-49 -/
structure Affects where
  ref : String := ""
  range : PSlice AffectedVersions := .nil

/-- cyclonedx.go:73-77 -/
structure AttachedText where
  content : String := ""
  contentType : String := ""
  encoding : String := ""

/-- cyclonedx.go:1277-1280 -/
structure Property where
  name : String := ""
  value : String := ""

/-- cyclonedx.go:290-294 -/
structure ComponentDataContents where
  attachment : Option AttachedText := none
  url : String := ""
  properties : PSlice Property := .nil

/-- cyclonedx.go:301-304 -/
structure ComponentDataGraphic where
  name : String := ""
  image : Option AttachedText := none

/-- cyclonedx.go:306-309 -/
structure ComponentDataGraphics where
  description : String := ""
  collection : PSlice ComponentDataGraphic := .nil

/-- cyclonedx.go:1211-1216 -/
structure OrganizationalContact where
  bomRef : String := ""
  name : String := ""
  email : String := ""
  phone : String := ""

/-- cyclonedx.go:1261-1269 -/
structure PostalAddress where
  bomRef : String := ""
  country : String := ""
  region : String := ""
  locality : String := ""
  postOfficeBoxNumber : String := ""
  postalCode : String := ""
  streetAddress : String := ""

/-- cyclonedx.go:1218-1224 -/
structure OrganizationalEntity where
  bomRef : String := ""
  name : String := ""
  address : Option PostalAddress := none
  url : PSlice String := .nil
  contact : PSlice OrganizationalContact := .nil

/-- cyclonedx.go:296-299 -/
structure ComponentDataGovernanceResponsibleParty where
  organization : Option OrganizationalEntity := none
  contact : Option OrganizationalContact := none

/-- cyclonedx.go:570-574 -/
structure DataGovernance where
  custodians : PSlice ComponentDataGovernanceResponsibleParty := .nil
  stewards : PSlice ComponentDataGovernanceResponsibleParty := .nil
  owners : PSlice ComponentDataGovernanceResponsibleParty := .nil

/-- cyclonedx.go:278-288 -/
structure ComponentData where
  bomRef : String := ""
  type : ComponentDataType := ""
  name : String := ""
  contents : Option ComponentDataContents := none
  classification : String := ""
  sensitiveData : PSlice String := .nil
  graphics : Option ComponentDataGraphics := none
  description : String := ""
  governance : Option DataGovernance := none

/-- cyclonedx.go:808-811 -/
structure Hash where
  algorithm : HashAlgorithm := ""
  value : String := ""

/-- cyclonedx.go:1866-1869 -/
structure RelatedCryptographicAsset where
  type : String := ""
  ref : String := ""

/-- cyclonedx.go:1880-1883 -/
structure PredefinedCertificateState where
  state : CertificateStateType := ""
  reason : String := ""

/-- cyclonedx.go:1886-1890 -/
structure CustomCertificateState where
  name : String := ""
  description : String := ""
  reason : String := ""

/-- cyclonedx.go:1874-1877 -/
structure CertificateState where
  predefined : Option PredefinedCertificateState := none
  custom : Option CustomCertificateState := none

/-- cyclonedx.go:1913-1916 -/
structure CommonCertificateExtension where
  name : CertificateExtensionName := ""
  value : String := ""

/-- cyclonedx.go:1919-1922 -/
structure CustomCertificateExtension where
  name : String := ""
  value : String := ""

/-- cyclonedx.go:1907-1910 -/
structure CertificateExtension where
  common : Option CommonCertificateExtension := none
  custom : Option CustomCertificateExtension := none

/-- cyclonedx.go:171-191 -/
structure CertificateProperties where
  serialNumber : String := ""
  subjectName : String := ""
  issuerName : String := ""
  notValidBefore : String := ""
  notValidAfter : String := ""
  signatureAlgorithmRef : BOMReference := ⟨""⟩
  subjectPublicKeyRef : BOMReference := ⟨""⟩
  certificateFormat : String := ""
  certificateExtension : String := ""
  certificateFileExtension : String := ""
  fingerprint : Option Hash := none
  certificateState : PSlice CertificateState := .nil
  certificateExtensions : PSlice CertificateExtension := .nil
  relatedCryptographicAssets : PSlice RelatedCryptographicAsset := .nil
  creationDate : String := ""
  activationDate : String := ""
  deactivationDate : String := ""
  revocationDate : String := ""
  destructionDate : String := ""

/-- cyclonedx.go:368-382 -/
structure CryptoAlgorithmProperties where
  primitive : CryptoPrimitive := ""
  parameterSetIdentifier : String := ""
  algorithmFamily : String := ""
  curve : String := ""
  ellipticCurve : String := ""
  executionEnvironment : CryptoExecutionEnvironment := ""
  implementationPlatform : ImplementationPlatform := ""
  certificationLevel : PSlice CryptoCertificationLevel := .nil
  mode : CryptoAlgorithmMode := ""
  padding : CryptoPadding := ""
  cryptoFunctions : PSlice CryptoFunction := .nil
  classicalSecurityLevel : Option Int := none
  nistQuantumSecurityLevel : Option Int := none

/-- cyclonedx.go:205-211 -/
structure CipherSuite where
  name : String := ""
  algorithms : PSlice BOMReference := .nil
  identifiers : PSlice String := .nil
  tlsGroups : PSlice String := .nil
  tlsSignatureSchemes : PSlice String := .nil

/-- cyclonedx.go:1826-1830 -/
structure IKEv2Auth where
  bomRef : BOMReference := ⟨""⟩
  name : String := ""
  algorithm : String := ""

/-- cyclonedx.go:1834-1839 -/
structure IKEv2Enc where
  bomRef : BOMReference := ⟨""⟩
  name : String := ""
  keyLength : Option Int := none
  algorithm : String := ""

/-- cyclonedx.go:1843-1847 -/
structure IKEv2Integ where
  bomRef : BOMReference := ⟨""⟩
  name : String := ""
  algorithm : String := ""

/-- cyclonedx.go:1851-1855 -/
structure IKEv2Ke where
  bomRef : BOMReference := ⟨""⟩
  group : Option Int := none
  algorithm : String := ""

/-- cyclonedx.go:1859-1863 -/
structure IKEv2Prf where
  bomRef : BOMReference := ⟨""⟩
  name : String := ""
  algorithm : String := ""

/-- cyclonedx.go:537-544 -/
structure IKEv2TransformTypes where
  encr : PSlice IKEv2Enc := .nil
  prf : PSlice IKEv2Prf := .nil
  integ : PSlice IKEv2Integ := .nil
  ke : PSlice IKEv2Ke := .nil
  esn : Bool := false
  auth : PSlice IKEv2Auth := .nil

/-- cyclonedx.go:509-516 -/
structure CryptoProtocolProperties where
  type : CryptoProtocolType := ""
  version : String := ""
  cipherSuites : PSlice CipherSuite := .nil
  ikev2TransformTypes : Option IKEv2TransformTypes := none
  cryptoRefArray : PSlice BOMReference := .nil
  relatedCryptographicAssets : PSlice RelatedCryptographicAsset := .nil

/-- cyclonedx.go:546-549 -/
structure SecuredBy where
  mechanism : String := ""
  algorithmRef : BOMReference := ⟨""⟩

/-- cyclonedx.go:1282-1297 -/
structure RelatedCryptoMaterialProperties where
  type : RelatedCryptoMaterialType := ""
  id : String := ""
  state : CryptoKeyState := ""
  algorithmRef : BOMReference := ⟨""⟩
  creationDate : String := ""
  activationDate : String := ""
  updateDate : String := ""
  expirationDate : String := ""
  value : String := ""
  size : Option Int := none
  format : String := ""
  securedBy : Option SecuredBy := none
  fingerprint : Option Hash := none
  relatedCryptographicAssets : PSlice RelatedCryptographicAsset := .nil

/-- cyclonedx.go:500-507 -/
structure CryptoProperties where
  assetType : CryptoAssetType := ""
  algorithmProperties : Option CryptoAlgorithmProperties := none
  certificateProperties : Option CertificateProperties := none
  relatedCryptoMaterialProperties : Option RelatedCryptoMaterialProperties := none
  protocolProperties : Option CryptoProtocolProperties := none
  oid : String := ""

/-- cyclonedx.go:161-169 -/
structure CallstackFrame where
  package : String := ""
  module : String := ""
  function : String := ""
  parameters : PSlice String := .nil
  line : Option Int := none
  column : Option Int := none
  fullFilename : String := ""

/-- cyclonedx.go:157-159 -/
structure Callstack where
  frames : PSlice CallstackFrame := .nil

/-- cyclonedx.go:345-347 -/
structure Copyright where
  text : String := ""

/-- cyclonedx.go:710-714 -/
structure EvidenceIdentityMethod where
  technique : EvidenceIdentityTechnique := ""
  confidence : Option F32 := none
  value : String := ""

/-- cyclonedx.go:688-694 -/
structure EvidenceIdentity where
  field : EvidenceIdentityFieldType := ""
  confidence : Option F32 := none
  concludedValue : String := ""
  methods : PSlice EvidenceIdentityMethod := .nil
  tools : PSlice BOMReference := .nil

/-- cyclonedx.go:683-686 -/
structure EvidenceIdentityChoice where
  identity : Option EvidenceIdentity := none
  identities : PSlice EvidenceIdentity := .nil

/-- cyclonedx.go:731-738 -/
structure EvidenceOccurrence where
  bomRef : String := ""
  location : String := ""
  line : Option Int := none
  offset : Option Int := none
  symbol : String := ""
  additionalContext : String := ""

/-- cyclonedx.go:1226-1229 -/
structure OrganizationalEntityOrContact where
  organization : Option OrganizationalEntity := none
  individual : Option OrganizationalContact := none

/-- cyclonedx.go:995-1004 -/
structure Licensing where
  altIDs : PSlice String := .nil
  licensor : Option OrganizationalEntityOrContact := none
  licensee : Option OrganizationalEntityOrContact := none
  purchaser : Option OrganizationalEntityOrContact := none
  purchaseOrder : String := ""
  licenseTypes : PSlice LicenseType := .nil
  lastRenewal : String := ""
  expiration : String := ""

/-- cyclonedx.go:936-945 -/
structure License where
  bomRef : String := ""
  id : String := ""
  name : String := ""
  acknowledgement : LicenseAcknowledgement := ""
  text : Option AttachedText := none
  url : String := ""
  licensing : Option Licensing := none
  properties : PSlice Property := .nil

/-- cyclonedx.go:967-972 -/
structure LicenseExpressionDetail where
  licenseIdentifier : String := ""
  bomRef : String := ""
  text : Option AttachedText := none
  url : String := ""

/-- cyclonedx.go:956-964 -/
structure LicenseChoice where
  license : Option License := none
  expression : String := ""
  expressionDetails : PSlice LicenseExpressionDetail := .nil
  acknowledgement : Option LicenseAcknowledgement := none
  bomRef : String := ""
  licensing : Option Licensing := none
  properties : PSlice Property := .nil

/-- cyclonedx.go:672-678 -/
structure Evidence where
  identity : Option EvidenceIdentityChoice := none
  occurrences : PSlice EvidenceOccurrence := .nil
  callstack : Option Callstack := none
  licenses : PSlice LicenseChoice := .nil
  copyright : PSlice Copyright := .nil

/-- cyclonedx.go:740-746 -/
structure ExternalReference where
  url : String := ""
  comment : String := ""
  hashes : PSlice Hash := .nil
  type : ExternalReferenceType := ""
  properties : PSlice Property := .nil

/-- cyclonedx.go:925-934 -/
structure JSFPublicKey where
  kty : String := ""
  crv : String := ""
  x : String := ""
  y : String := ""
  n : String := ""
  e : String := ""

/-- cyclonedx.go:916-923 -/
structure JSFSigner where
  algorithm : String := ""
  keyID : String := ""
  publicKey : JSFPublicKey := {}
  certificatePath : PSlice String := .nil
  excludes : PSlice String := .nil
  value : String := ""

/-- cyclonedx.go:909-914 -/
structure JSFSignature where
  jsfSigner : Option JSFSigner := none
  signers : PSlice JSFSigner := .nil
  chain : PSlice JSFSigner := .nil

/-- cyclonedx.go:1099-1102 -/
structure MLModelCO2Measure where
  value : F32 := ⟨0⟩
  unit : MLModelCO2Unit := ""

/-- cyclonedx.go:1131-1134 -/
structure MLModelEnergyMeasure where
  value : F32 := ⟨0⟩
  unit : MLModelEnergyUnit := ""

/-- cyclonedx.go:1136-1143 -/
structure MLModelEnergyProvider where
  bomRef : String := ""
  description : String := ""
  organization : Option OrganizationalEntity := none
  energySource : MLModelEnergySource := ""
  energyProvided : Option MLModelEnergyMeasure := none
  externalReferences : PSlice ExternalReference := .nil

/-- cyclonedx.go:1108-1115 -/
structure MLModelEnergyConsumption where
  activity : MLModelEnergyConsumptionActivity := ""
  energyProviders : PSlice MLModelEnergyProvider := .nil
  activityEnergyCost : MLModelEnergyMeasure := {}
  co2CostEquivalent : Option MLModelCO2Measure := none
  co2CostOffset : Option MLModelCO2Measure := none
  properties : PSlice Property := .nil

/-- cyclonedx.go:1082-1085 -/
structure MLModelCardEnvironmentalConsiderations where
  energyConsumptions : PSlice MLModelEnergyConsumption := .nil
  properties : PSlice Property := .nil

/-- cyclonedx.go:1087-1090 -/
structure MLModelCardEthicalConsideration where
  name : String := ""
  mitigationStrategy : String := ""

/-- cyclonedx.go:1092-1097 -/
structure MLModelCardFairnessAssessment where
  groupAtRisk : String := ""
  benefits : String := ""
  harms : String := ""
  mitigationStrategy : String := ""

/-- cyclonedx.go:1072-1080 -/
structure MLModelCardConsiderations where
  users : PSlice String := .nil
  useCases : PSlice String := .nil
  technicalLimitations : PSlice String := .nil
  performanceTradeoffs : PSlice String := .nil
  ethicalConsiderations : PSlice MLModelCardEthicalConsideration := .nil
  environmentalConsiderations : Option MLModelCardEnvironmentalConsiderations := none
  fairnessAssessments : PSlice MLModelCardFairnessAssessment := .nil

/-- cyclonedx.go:1056-1059 -/
structure MLDatasetChoice where
  ref : String := ""
  componentData : Option ComponentData := none

/-- cyclonedx.go:1061-1063 -/
structure MLInputOutputParameters where
  format : String := ""

/-- cyclonedx.go:1175-1177 -/
structure MLModelParametersApproach where
  type : MLModelParametersApproachType := ""

/-- cyclonedx.go:1165-1173 -/
structure MLModelParameters where
  approach : Option MLModelParametersApproach := none
  task : String := ""
  architectureFamily : String := ""
  modelArchitecture : String := ""
  datasets : PSlice MLDatasetChoice := .nil
  inputs : PSlice MLInputOutputParameters := .nil
  outputs : PSlice MLInputOutputParameters := .nil

/-- cyclonedx.go:1201-1204 -/
structure MLPerformanceMetricConfidenceInterval where
  lowerBound : String := ""
  upperBound : String := ""

/-- cyclonedx.go:1194-1199 -/
structure MLPerformanceMetric where
  type : String := ""
  value : String := ""
  slice : String := ""
  confidenceInterval : Option MLPerformanceMetricConfidenceInterval := none

/-- cyclonedx.go:1189-1192 -/
structure MLQuantitativeAnalysis where
  performanceMetrics : PSlice MLPerformanceMetric := .nil
  graphics : Option ComponentDataGraphics := none

/-- cyclonedx.go:1065-1070 -/
structure MLModelCard where
  bomRef : String := ""
  modelParameters : Option MLModelParameters := none
  quantitativeAnalysis : Option MLQuantitativeAnalysis := none
  considerations : Option MLModelCardConsiderations := none

/-- cyclonedx.go:832-836 -/
structure IdentifiableAction where
  timestamp : String := ""
  name : String := ""
  email : String := ""

/-- cyclonedx.go:231-237 -/
structure Commit where
  uid : String := ""
  url : String := ""
  author : Option IdentifiableAction := none
  committer : Option IdentifiableAction := none
  message : String := ""

/-- cyclonedx.go:650-653 -/
structure Diff where
  text : Option AttachedText := none
  url : String := ""

/-- cyclonedx.go:1398-1401 -/
structure Source where
  name : String := ""
  url : String := ""

/-- cyclonedx.go:892-899 -/
structure Issue where
  id : String := ""
  name : String := ""
  description : String := ""
  source : Option Source := none
  references : PSlice String := .nil
  type : IssueType := ""

/-- cyclonedx.go:1237-1241 -/
structure Patch where
  diff : Option Diff := none
  resolves : PSlice Issue := .nil
  type : PatchType := ""

/-- cyclonedx.go:1252-1259 -/
structure Pedigree (C : Type) where
  ancestors : PSlice C := .nil
  descendants : PSlice C := .nil
  variants : PSlice C := .nil
  commits : PSlice Commit := .nil
  patches : PSlice Patch := .nil
  notes : String := ""

/-- cyclonedx.go:1206-1209 -/
structure Note where
  locale : String := ""
  text : AttachedText := {}

/-- cyclonedx.go:1323-1335 -/
structure ReleaseNotes where
  type : String := ""
  title : String := ""
  featuredImage : String := ""
  socialImage : String := ""
  description : String := ""
  timestamp : String := ""
  aliases : PSlice String := .nil
  tags : PSlice String := .nil
  resolves : PSlice Issue := .nil
  notes : PSlice Note := .nil
  properties : PSlice Property := .nil

/-- cyclonedx.go:1449-1457 -/
structure SWID where
  text : Option AttachedText := none
  url : String := ""
  tagID : String := ""
  name : String := ""
  version : String := ""
  tagVersion : Option Int := none
  patch : Option Bool := none

/-- cyclonedx.go:1772-1776 -/
structure AsserterChoice where
  organization : Option OrganizationalEntity := none
  individual : Option OrganizationalContact := none
  bomRef : Option BOMReference := none

/-- cyclonedx.go:1779-1785 -/
structure PatentAssertion where
  bomRef : String := ""
  patentRefs : PSlice BOMReference := .nil
  assertionType : PatentAssertionType := ""
  asserter : Option AsserterChoice := none
  notes : String := ""

/-- cyclonedx.go:239-276 -/
structure Component where
  bomRef : String := ""
  mimeType : String := ""
  type : ComponentType := ""
  supplier : Option OrganizationalEntity := none
  manufacturer : Option OrganizationalEntity := none
  author : String := ""
  authors : PSlice OrganizationalContact := .nil
  publisher : String := ""
  group : String := ""
  name : String := ""
  version : String := ""
  description : String := ""
  scope : Scope := ""
  hashes : PSlice Hash := .nil
  licenses : PSlice LicenseChoice := .nil
  copyright : String := ""
  cpe : String := ""
  packageURL : String := ""
  omniborID : PSlice String := .nil
  swhid : PSlice String := .nil
  swid : Option SWID := none
  modified : Option Bool := none
  pedigree : Option (Pedigree Component) := none
  externalReferences : PSlice ExternalReference := .nil
  properties : PSlice Property := .nil
  components : PSlice Component := .nil
  evidence : Option Evidence := none
  releaseNotes : Option ReleaseNotes := none
  modelCard : Option MLModelCard := none
  data : PSlice ComponentData := .nil
  cryptoProperties : Option CryptoProperties := none
  tags : PSlice String := .nil
  isExternal : Option Bool := none
  patentAssertions : PSlice PatentAssertion := .nil
  versionRange : String := ""
  signature : Option JSFSignature := none

/-- cyclonedx.go:551-559 -/
structure DataClassification where
  flow : DataFlow := ""
  classification : String := ""
  name : String := ""
  description : String := ""
  governance : Option DataGovernance := none
  source : PSlice String := .nil
  destination : PSlice String := .nil

/-- cyclonedx.go:1362-1382 -/
structure Service where
  bomRef : String := ""
  provider : Option OrganizationalEntity := none
  group : String := ""
  name : String := ""
  version : String := ""
  description : String := ""
  endpoints : PSlice String := .nil
  authenticated : Option Bool := none
  crossesTrustBoundary : Option Bool := none
  data : PSlice DataClassification := .nil
  licenses : PSlice LicenseChoice := .nil
  externalReferences : PSlice ExternalReference := .nil
  properties : PSlice Property := .nil
  services : PSlice Service := .nil
  releaseNotes : Option ReleaseNotes := none
  tags : PSlice String := .nil
  trustZone : String := ""
  patentAssertions : PSlice PatentAssertion := .nil
  signature : Option JSFSignature := none

/-- cyclonedx.go:60-65 -/
structure Annotator where
  organization : Option OrganizationalEntity := none
  individual : Option OrganizationalContact := none
  component : Option Component := none
  service : Option Service := none

/-- cyclonedx.go:51-58 -/
structure Annotation where
  bomRef : String := ""
  subjects : PSlice BOMReference := .nil
  annotator : Option Annotator := none
  timestamp : String := ""
  text : String := ""
  signature : Option JSFSignature := none

/-- cyclonedx.go:67-71 -/
structure Assessor where
  bomRef : BOMReference := ⟨""⟩
  thirdParty : Bool := false
  organization : Option OrganizationalEntity := none

/-- cyclonedx.go:94-98 -/
structure AttestationConformance where
  score : Option F64 := none
  rationale : String := ""
  mitigationStrategies : PSlice BOMReference := .nil

/-- cyclonedx.go:100-103 -/
structure AttestationConfidence where
  score : Option F64 := none
  rationale : String := ""

/-- cyclonedx.go:86-92 -/
structure AttestationMap where
  requirement : String := ""
  claims : PSlice BOMReference := .nil
  counterClaims : PSlice BOMReference := .nil
  conformance : Option AttestationConformance := none
  confidence : Option AttestationConfidence := none

/-- cyclonedx.go:79-84 -/
structure Attestation where
  summary : String := ""
  assessor : BOMReference := ⟨""⟩
  map : PSlice AttestationMap := .nil
  signature : Option JSFSignature := none

/-- cyclonedx.go:321-328 -/
structure Composition where
  bomRef : String := ""
  aggregate : CompositionAggregate := ""
  assemblies : PSlice BOMReference := .nil
  dependencies : PSlice BOMReference := .nil
  vulnerabilities : PSlice BOMReference := .nil
  signature : Option JSFSignature := none

/-- cyclonedx.go:193-203 -/
structure Claim where
  bomRef : String := ""
  target : BOMReference := ⟨""⟩
  predicate : String := ""
  mitigationStrategies : PSlice BOMReference := .nil
  reasoning : String := ""
  evidence : PSlice BOMReference := .nil
  counterEvidence : PSlice BOMReference := .nil
  externalReferences : PSlice ExternalReference := .nil
  signature : Option JSFSignature := none

/-- cyclonedx.go:619-622 -/
structure EvidenceDataContents where
  attachment : Option AttachedText := none
  url : String := ""

/-- cyclonedx.go:611-617 -/
structure EvidenceData where
  name : String := ""
  contents : Option EvidenceDataContents := none
  classification : Option DataClassification := none
  sensitiveData : PSlice String := .nil
  governance : Option DataGovernance := none

/-- cyclonedx.go:586-596 -/
structure DeclarationEvidence where
  bomRef : String := ""
  propertyName : String := ""
  description : String := ""
  data : PSlice EvidenceData := .nil
  created : String := ""
  expires : String := ""
  author : Option OrganizationalContact := none
  reviewer : Option OrganizationalContact := none
  signature : Option JSFSignature := none

/-- cyclonedx.go:624-628 -/
structure Targets where
  organizations : PSlice OrganizationalEntity := .nil
  components : PSlice Component := .nil
  services : PSlice Service := .nil

/-- cyclonedx.go:636-642 -/
structure Signatory where
  name : String := ""
  role : String := ""
  signature : Option JSFSignature := none
  organization : Option OrganizationalEntity := none
  externalReference : Option ExternalReference := none

/-- cyclonedx.go:630-634 -/
structure Affirmation where
  statement : String := ""
  signatories : PSlice Signatory := .nil
  signature : Option JSFSignature := none

/-- cyclonedx.go:576-584 -/
structure Declarations where
  assessors : PSlice Assessor := .nil
  attestations : PSlice Attestation := .nil
  claims : PSlice Claim := .nil
  evidence : PSlice DeclarationEvidence := .nil
  targets : Option Targets := none
  affirmation : Option Affirmation := none
  signature : Option JSFSignature := none

/-- cyclonedx.go:1802-1806 -/
structure PriorityApplication where
  applicationNumber : String := ""
  jurisdiction : String := ""
  filingDate : String := ""

/-- cyclonedx.go:1743-1758 -/
structure Patent where
  bomRef : String := ""
  patentNumber : String := ""
  applicationNumber : String := ""
  jurisdiction : String := ""
  priorityApplication : Option PriorityApplication := none
  publicationNumber : String := ""
  title : String := ""
  abstract : String := ""
  filingDate : String := ""
  grantDate : String := ""
  patentExpirationDate : String := ""
  patentLegalStatus : PatentLegalStatus := ""
  patentAssignee : PSlice OrganizationalEntityOrContact := .nil
  externalReferences : PSlice ExternalReference := .nil

/-- cyclonedx.go:1761-1767 -/
structure PatentFamily where
  bomRef : String := ""
  familyID : String := ""
  priorityApplication : Option PriorityApplication := none
  members : PSlice BOMReference := .nil
  externalReferences : PSlice ExternalReference := .nil

/-- cyclonedx.go:606-609 -/
structure PatentChoice where
  patent : Option Patent := none
  patentFamily : Option PatentFamily := none

/-- cyclonedx.go:1429-1439 -/
structure StandardRequirement where
  bomRef : String := ""
  identifier : String := ""
  title : String := ""
  text : String := ""
  descriptions : PSlice String := .nil
  openCRE : PSlice String := .nil
  parent : String := ""
  properties : PSlice Property := .nil
  externalReferences : PSlice ExternalReference := .nil

/-- cyclonedx.go:1441-1447 -/
structure StandardLevel where
  bomRef : String := ""
  identifier : String := ""
  title : String := ""
  description : String := ""
  requirements : PSlice String := .nil

/-- cyclonedx.go:1416-1427 -/
structure StandardDefinition where
  bomRef : String := ""
  name : String := ""
  version : String := ""
  description : String := ""
  owner : String := ""
  requirements : PSlice StandardRequirement := .nil
  levels : PSlice StandardLevel := .nil
  externalReferences : PSlice ExternalReference := .nil
  signature : Option JSFSignature := none

/-- cyclonedx.go:598-601 -/
structure Definitions where
  standards : PSlice StandardDefinition := .nil
  patents : PSlice PatentChoice := .nil

/-- cyclonedx.go:644-648 -/
structure Dependency where
  ref : String := ""
  dependencies : PSlice String := .nil
  provides : PSlice String := .nil

/-- cyclonedx.go:1337-1340 -/
structure ResourceReferenceChoice where
  ref : String := ""
  externalReference : Option ExternalReference := none

/-- cyclonedx.go:657-660 -/
structure EnvironmentVariableChoice where
  property : Option Property := none
  value : String := ""

/-- cyclonedx.go:1231-1235 -/
structure Parameter where
  name : String := ""
  value : String := ""
  dataType : String := ""

/-- cyclonedx.go:1482-1490 -/
structure TaskInput where
  resource : Option ResourceReferenceChoice := none
  parameters : PSlice Parameter := .nil
  environmentVars : PSlice EnvironmentVariableChoice := .nil
  data : Option AttachedText := none
  source : Option ResourceReferenceChoice := none
  target : Option ResourceReferenceChoice := none
  properties : PSlice Property := .nil

/-- cyclonedx.go:1492-1501 -/
structure TaskOutput where
  resource : Option ResourceReferenceChoice := none
  parameters : PSlice Parameter := .nil
  environmentVars : PSlice EnvironmentVariableChoice := .nil
  data : Option AttachedText := none
  type : TaskOutputType := ""
  source : Option ResourceReferenceChoice := none
  target : Option ResourceReferenceChoice := none
  properties : PSlice Property := .nil

/-- cyclonedx.go:1477-1480 -/
structure TaskCommand where
  executed : String := ""
  properties : PSlice Property := .nil

/-- cyclonedx.go:1514-1519 -/
structure TaskStep where
  name : String := ""
  description : String := ""
  commands : PSlice TaskCommand := .nil
  properties : PSlice Property := .nil

/-- cyclonedx.go:662-670 -/
structure Event where
  uid : String := ""
  description : String := ""
  timeReceived : String := ""
  data : Option AttachedText := none
  source : Option ResourceReferenceChoice := none
  target : Option ResourceReferenceChoice := none
  properties : PSlice Property := .nil

/-- cyclonedx.go:1536-1540 -/
structure TaskTriggerCondition where
  description : String := ""
  expression : String := ""
  properties : PSlice Property := .nil

/-- cyclonedx.go:1521-1534 -/
structure TaskTrigger where
  bomRef : String := ""
  uid : String := ""
  name : String := ""
  description : String := ""
  resourceReferences : PSlice ResourceReferenceChoice := .nil
  type : TaskTriggerType := ""
  event : Option Event := none
  conditions : PSlice TaskTriggerCondition := .nil
  timeActivated : String := ""
  inputs : PSlice TaskInput := .nil
  outputs : PSlice TaskOutput := .nil
  properties : PSlice Property := .nil

/-- cyclonedx.go:1616-1625 -/
structure Volume where
  uid : String := ""
  name : String := ""
  mode : VolumeMode := ""
  path : String := ""
  sizeAllocated : String := ""
  persistent : Option Bool := none
  remote : Option Bool := none
  properties : PSlice Property := .nil

/-- cyclonedx.go:1568-1581 -/
structure TaskWorkspace where
  bomRef : String := ""
  uid : String := ""
  name : String := ""
  aliases : PSlice String := .nil
  description : String := ""
  resourceReferences : PSlice ResourceReferenceChoice := .nil
  accessMode : TaskWorkspaceAccessMode := ""
  mountPath : String := ""
  managedDataType : String := ""
  volumeRequest : String := ""
  volume : Option Volume := none
  properties : PSlice Property := .nil

/-- cyclonedx.go:1459-1475 -/
structure Task where
  bomRef : String := ""
  uid : String := ""
  name : String := ""
  description : String := ""
  properties : PSlice Property := .nil
  resourceReferences : PSlice ResourceReferenceChoice := .nil
  taskTypes : PSlice TaskType := .nil
  trigger : Option TaskTrigger := none
  steps : PSlice TaskStep := .nil
  inputs : PSlice TaskInput := .nil
  outputs : PSlice TaskOutput := .nil
  timeStart : String := ""
  timeEnd : String := ""
  workspaces : PSlice TaskWorkspace := .nil
  runtimeTopology : PSlice Dependency := .nil

/-- cyclonedx.go:1689-1707 -/
structure Workflow where
  bomRef : String := ""
  uid : String := ""
  name : String := ""
  description : String := ""
  resourceReferences : PSlice ResourceReferenceChoice := .nil
  tasks : PSlice Task := .nil
  taskDependencies : PSlice Dependency := .nil
  taskTypes : PSlice TaskType := .nil
  trigger : Option TaskTrigger := none
  steps : PSlice TaskStep := .nil
  inputs : PSlice TaskInput := .nil
  outputs : PSlice TaskOutput := .nil
  timeStart : String := ""
  timeEnd : String := ""
  workspaces : PSlice TaskWorkspace := .nil
  runtimeTopology : PSlice Dependency := .nil
  properties : PSlice Property := .nil

/-- cyclonedx.go:800-806 -/
structure Formula where
  bomRef : String := ""
  components : PSlice Component := .nil
  services : PSlice Service := .nil
  workflows : PSlice Workflow := .nil
  properties : PSlice Property := .nil

/-- cyclonedx.go:1006-1010 -/
structure Lifecycle where
  name : String := ""
  phase : LifecyclePhase := ""
  description : String := ""

/-- cyclonedx.go:1594-1600 -/
structure Tool where
  vendor : String := ""
  name : String := ""
  version : String := ""
  hashes : PSlice Hash := .nil
  externalReferences : PSlice ExternalReference := .nil

/-- cyclonedx.go:1610-1614 -/
structure ToolsChoice where
  tools : PSlice Tool := .nil
  components : PSlice Component := .nil
  services : PSlice Service := .nil

/-- cyclonedx.go:1809-1811 -/
structure DistributionConstraints where
  tlp : TLPClassification := ""

/-- cyclonedx.go:1042-1054 -/
structure Metadata where
  timestamp : String := ""
  lifecycles : PSlice Lifecycle := .nil
  tools : Option ToolsChoice := none
  authors : PSlice OrganizationalContact := .nil
  component : Option Component := none
  manufacture : Option OrganizationalEntity := none
  manufacturer : Option OrganizationalEntity := none
  supplier : Option OrganizationalEntity := none
  licenses : PSlice LicenseChoice := .nil
  properties : PSlice Property := .nil
  distributionConstraints : Option DistributionConstraints := none

/-- cyclonedx.go:349-352 -/
structure Credits where
  organizations : PSlice OrganizationalEntity := .nil
  individuals : PSlice OrganizationalContact := .nil

/-- cyclonedx.go:1271-1275 -/
structure ProofOfConcept where
  reproductionSteps : String := ""
  environment : String := ""
  supportingMaterial : PSlice AttachedText := .nil

/-- cyclonedx.go:1658-1665 -/
structure VulnerabilityAnalysis where
  state : ImpactAnalysisState := ""
  justification : ImpactAnalysisJustification := ""
  response : PSlice ImpactAnalysisResponse := .nil
  detail : String := ""
  firstIssued : String := ""
  lastUpdated : String := ""

/-- cyclonedx.go:1667-1674 -/
structure VulnerabilityRating where
  source : Option Source := none
  score : Option F64 := none
  severity : Severity := ""
  method : ScoringMethod := ""
  vector : String := ""
  justification : String := ""

/-- cyclonedx.go:1676-1679 -/
structure VulnerabilityReference where
  id : String := ""
  source : Option Source := none

/-- cyclonedx.go:1634-1656 -/
structure Vulnerability where
  bomRef : String := ""
  id : String := ""
  source : Option Source := none
  references : PSlice VulnerabilityReference := .nil
  ratings : PSlice VulnerabilityRating := .nil
  cwes : PSlice Int := .nil
  description : String := ""
  detail : String := ""
  recommendation : String := ""
  workaround : String := ""
  proofOfConcept : Option ProofOfConcept := none
  advisories : PSlice Advisory := .nil
  created : String := ""
  published : String := ""
  updated : String := ""
  rejected : String := ""
  credits : Option Credits := none
  tools : Option ToolsChoice := none
  analysis : Option VulnerabilityAnalysis := none
  affects : PSlice Affects := .nil
  properties : PSlice Property := .nil

/-- cyclonedx.go:1712-1721 -/
structure Citation where
  bomRef : String := ""
  pointers : PSlice String := .nil
  expressions : PSlice String := .nil
  timestamp : String := ""
  attributedTo : Option BOMReference := none
  process : String := ""
  note : String := ""
  signature : Option JSFSignature := none

/-- cyclonedx.go:105-131 -/
structure BOM where
  xmlName : XMLName := {}
  xmlns : String := ""
  jsonSchema : String := ""
  bomFormat : String := ""
  specVersion : Int := 0
  serialNumber : String := ""
  version : Int := 0
  metadata : Option Metadata := none
  components : PSlice Component := .nil
  services : PSlice Service := .nil
  externalReferences : PSlice ExternalReference := .nil
  dependencies : PSlice Dependency := .nil
  compositions : PSlice Composition := .nil
  properties : PSlice Property := .nil
  vulnerabilities : PSlice Vulnerability := .nil
  annotations : PSlice Annotation := .nil
  formulation : PSlice Formula := .nil
  declarations : Option Declarations := none
  definitions : Option Definitions := none
  citations : PSlice Citation := .nil
  signature : Option JSFSignature := none

end Verif
