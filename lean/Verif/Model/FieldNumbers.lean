/-!
# The positions of fields in structs

GENERATED by `tools/gen_fieldnums.py` from the struct declarations of `/repo/cyclonedx.go`; do not edit by hand.
-/

namespace Verif.Heap.F

namespace BOM
/-- cyclonedx.go:105-131 -/
def xmlName : Nat := 0
/-- cyclonedx.go:105-131 -/
def xmlns : Nat := 1
/-- cyclonedx.go:105-131 -/
def jsonSchema : Nat := 2
/-- cyclonedx.go:105-131 -/
def bomFormat : Nat := 3
/-- cyclonedx.go:105-131 -/
def specVersion : Nat := 4
/-- cyclonedx.go:105-131 -/
def serialNumber : Nat := 5
/-- cyclonedx.go:105-131 -/
def version : Nat := 6
/-- cyclonedx.go:105-131 -/
def metadata : Nat := 7
/-- cyclonedx.go:105-131 -/
def components : Nat := 8
/-- cyclonedx.go:105-131 -/
def services : Nat := 9
/-- cyclonedx.go:105-131 -/
def externalReferences : Nat := 10
/-- cyclonedx.go:105-131 -/
def dependencies : Nat := 11
/-- cyclonedx.go:105-131 -/
def compositions : Nat := 12
/-- cyclonedx.go:105-131 -/
def properties : Nat := 13
/-- cyclonedx.go:105-131 -/
def vulnerabilities : Nat := 14
/-- cyclonedx.go:105-131 -/
def annotations : Nat := 15
/-- cyclonedx.go:105-131 -/
def formulation : Nat := 16
/-- cyclonedx.go:105-131 -/
def declarations : Nat := 17
/-- cyclonedx.go:105-131 -/
def definitions : Nat := 18
/-- cyclonedx.go:105-131 -/
def citations : Nat := 19
/-- cyclonedx.go:105-131 -/
def signature : Nat := 20
end BOM

namespace Metadata
/-- cyclonedx.go:1042-1054 -/
def timestamp : Nat := 0
/-- cyclonedx.go:1042-1054 -/
def lifecycles : Nat := 1
/-- cyclonedx.go:1042-1054 -/
def tools : Nat := 2
/-- cyclonedx.go:1042-1054 -/
def authors : Nat := 3
/-- cyclonedx.go:1042-1054 -/
def component : Nat := 4
/-- cyclonedx.go:1042-1054 -/
def manufacture : Nat := 5
/-- cyclonedx.go:1042-1054 -/
def manufacturer : Nat := 6
/-- cyclonedx.go:1042-1054 -/
def supplier : Nat := 7
/-- cyclonedx.go:1042-1054 -/
def licenses : Nat := 8
/-- cyclonedx.go:1042-1054 -/
def properties : Nat := 9
/-- cyclonedx.go:1042-1054 -/
def distributionConstraints : Nat := 10
end Metadata

namespace Component
/-- cyclonedx.go:239-276 -/
def bomRef : Nat := 0
/-- cyclonedx.go:239-276 -/
def mimeType : Nat := 1
/-- cyclonedx.go:239-276 -/
def type : Nat := 2
/-- cyclonedx.go:239-276 -/
def supplier : Nat := 3
/-- cyclonedx.go:239-276 -/
def manufacturer : Nat := 4
/-- cyclonedx.go:239-276 -/
def author : Nat := 5
/-- cyclonedx.go:239-276 -/
def authors : Nat := 6
/-- cyclonedx.go:239-276 -/
def publisher : Nat := 7
/-- cyclonedx.go:239-276 -/
def group : Nat := 8
/-- cyclonedx.go:239-276 -/
def name : Nat := 9
/-- cyclonedx.go:239-276 -/
def version : Nat := 10
/-- cyclonedx.go:239-276 -/
def description : Nat := 11
/-- cyclonedx.go:239-276 -/
def scope : Nat := 12
/-- cyclonedx.go:239-276 -/
def hashes : Nat := 13
/-- cyclonedx.go:239-276 -/
def licenses : Nat := 14
/-- cyclonedx.go:239-276 -/
def copyright : Nat := 15
/-- cyclonedx.go:239-276 -/
def cpe : Nat := 16
/-- cyclonedx.go:239-276 -/
def packageURL : Nat := 17
/-- cyclonedx.go:239-276 -/
def omniborID : Nat := 18
/-- cyclonedx.go:239-276 -/
def swhid : Nat := 19
/-- cyclonedx.go:239-276 -/
def swid : Nat := 20
/-- cyclonedx.go:239-276 -/
def modified : Nat := 21
/-- cyclonedx.go:239-276 -/
def pedigree : Nat := 22
/-- cyclonedx.go:239-276 -/
def externalReferences : Nat := 23
/-- cyclonedx.go:239-276 -/
def properties : Nat := 24
/-- cyclonedx.go:239-276 -/
def components : Nat := 25
/-- cyclonedx.go:239-276 -/
def evidence : Nat := 26
/-- cyclonedx.go:239-276 -/
def releaseNotes : Nat := 27
/-- cyclonedx.go:239-276 -/
def modelCard : Nat := 28
/-- cyclonedx.go:239-276 -/
def data : Nat := 29
/-- cyclonedx.go:239-276 -/
def cryptoProperties : Nat := 30
/-- cyclonedx.go:239-276 -/
def tags : Nat := 31
/-- cyclonedx.go:239-276 -/
def isExternal : Nat := 32
/-- cyclonedx.go:239-276 -/
def patentAssertions : Nat := 33
/-- cyclonedx.go:239-276 -/
def versionRange : Nat := 34
/-- cyclonedx.go:239-276 -/
def signature : Nat := 35
end Component

namespace Pedigree
/-- cyclonedx.go:1252-1259 -/
def ancestors : Nat := 0
/-- cyclonedx.go:1252-1259 -/
def descendants : Nat := 1
/-- cyclonedx.go:1252-1259 -/
def variants : Nat := 2
/-- cyclonedx.go:1252-1259 -/
def commits : Nat := 3
/-- cyclonedx.go:1252-1259 -/
def patches : Nat := 4
/-- cyclonedx.go:1252-1259 -/
def notes : Nat := 5
end Pedigree

namespace Evidence
/-- cyclonedx.go:672-678 -/
def identity : Nat := 0
/-- cyclonedx.go:672-678 -/
def occurrences : Nat := 1
/-- cyclonedx.go:672-678 -/
def callstack : Nat := 2
/-- cyclonedx.go:672-678 -/
def licenses : Nat := 3
/-- cyclonedx.go:672-678 -/
def copyright : Nat := 4
end Evidence

namespace EvidenceIdentityChoice
/-- cyclonedx.go:683-686 -/
def identity : Nat := 0
/-- cyclonedx.go:683-686 -/
def identities : Nat := 1
end EvidenceIdentityChoice

namespace EvidenceIdentity
/-- cyclonedx.go:688-694 -/
def field : Nat := 0
/-- cyclonedx.go:688-694 -/
def confidence : Nat := 1
/-- cyclonedx.go:688-694 -/
def concludedValue : Nat := 2
/-- cyclonedx.go:688-694 -/
def methods : Nat := 3
/-- cyclonedx.go:688-694 -/
def tools : Nat := 4
end EvidenceIdentity

namespace EvidenceOccurrence
/-- cyclonedx.go:731-738 -/
def bomRef : Nat := 0
/-- cyclonedx.go:731-738 -/
def location : Nat := 1
/-- cyclonedx.go:731-738 -/
def line : Nat := 2
/-- cyclonedx.go:731-738 -/
def offset : Nat := 3
/-- cyclonedx.go:731-738 -/
def symbol : Nat := 4
/-- cyclonedx.go:731-738 -/
def additionalContext : Nat := 5
end EvidenceOccurrence

namespace Composition
/-- cyclonedx.go:321-328 -/
def bomRef : Nat := 0
/-- cyclonedx.go:321-328 -/
def aggregate : Nat := 1
/-- cyclonedx.go:321-328 -/
def assemblies : Nat := 2
/-- cyclonedx.go:321-328 -/
def dependencies : Nat := 3
/-- cyclonedx.go:321-328 -/
def vulnerabilities : Nat := 4
/-- cyclonedx.go:321-328 -/
def signature : Nat := 5
end Composition

namespace DataClassification
/-- cyclonedx.go:551-559 -/
def flow : Nat := 0
/-- cyclonedx.go:551-559 -/
def classification : Nat := 1
/-- cyclonedx.go:551-559 -/
def name : Nat := 2
/-- cyclonedx.go:551-559 -/
def description : Nat := 3
/-- cyclonedx.go:551-559 -/
def governance : Nat := 4
/-- cyclonedx.go:551-559 -/
def source : Nat := 5
/-- cyclonedx.go:551-559 -/
def destination : Nat := 6
end DataClassification

namespace ExternalReference
/-- cyclonedx.go:740-746 -/
def url : Nat := 0
/-- cyclonedx.go:740-746 -/
def comment : Nat := 1
/-- cyclonedx.go:740-746 -/
def hashes : Nat := 2
/-- cyclonedx.go:740-746 -/
def type : Nat := 3
/-- cyclonedx.go:740-746 -/
def properties : Nat := 4
end ExternalReference

namespace Hash
/-- cyclonedx.go:808-811 -/
def algorithm : Nat := 0
/-- cyclonedx.go:808-811 -/
def value : Nat := 1
end Hash

namespace LicenseChoice
/-- cyclonedx.go:956-964 -/
def license : Nat := 0
/-- cyclonedx.go:956-964 -/
def expression : Nat := 1
/-- cyclonedx.go:956-964 -/
def expressionDetails : Nat := 2
/-- cyclonedx.go:956-964 -/
def acknowledgement : Nat := 3
/-- cyclonedx.go:956-964 -/
def bomRef : Nat := 4
/-- cyclonedx.go:956-964 -/
def licensing : Nat := 5
/-- cyclonedx.go:956-964 -/
def properties : Nat := 6
end LicenseChoice

namespace License
/-- cyclonedx.go:936-945 -/
def bomRef : Nat := 0
/-- cyclonedx.go:936-945 -/
def id : Nat := 1
/-- cyclonedx.go:936-945 -/
def name : Nat := 2
/-- cyclonedx.go:936-945 -/
def acknowledgement : Nat := 3
/-- cyclonedx.go:936-945 -/
def text : Nat := 4
/-- cyclonedx.go:936-945 -/
def url : Nat := 5
/-- cyclonedx.go:936-945 -/
def licensing : Nat := 6
/-- cyclonedx.go:936-945 -/
def properties : Nat := 7
end License

namespace Licensing
/-- cyclonedx.go:995-1004 -/
def altIDs : Nat := 0
/-- cyclonedx.go:995-1004 -/
def licensor : Nat := 1
/-- cyclonedx.go:995-1004 -/
def licensee : Nat := 2
/-- cyclonedx.go:995-1004 -/
def purchaser : Nat := 3
/-- cyclonedx.go:995-1004 -/
def purchaseOrder : Nat := 4
/-- cyclonedx.go:995-1004 -/
def licenseTypes : Nat := 5
/-- cyclonedx.go:995-1004 -/
def lastRenewal : Nat := 6
/-- cyclonedx.go:995-1004 -/
def expiration : Nat := 7
end Licensing

namespace OrganizationalEntityOrContact
/-- cyclonedx.go:1226-1229 -/
def organization : Nat := 0
/-- cyclonedx.go:1226-1229 -/
def individual : Nat := 1
end OrganizationalEntityOrContact

namespace OrganizationalEntity
/-- cyclonedx.go:1218-1224 -/
def bomRef : Nat := 0
/-- cyclonedx.go:1218-1224 -/
def name : Nat := 1
/-- cyclonedx.go:1218-1224 -/
def address : Nat := 2
/-- cyclonedx.go:1218-1224 -/
def url : Nat := 3
/-- cyclonedx.go:1218-1224 -/
def contact : Nat := 4
end OrganizationalEntity

namespace OrganizationalContact
/-- cyclonedx.go:1211-1216 -/
def bomRef : Nat := 0
/-- cyclonedx.go:1211-1216 -/
def name : Nat := 1
/-- cyclonedx.go:1211-1216 -/
def email : Nat := 2
/-- cyclonedx.go:1211-1216 -/
def phone : Nat := 3
end OrganizationalContact

namespace MLModelCard
/-- cyclonedx.go:1065-1070 -/
def bomRef : Nat := 0
/-- cyclonedx.go:1065-1070 -/
def modelParameters : Nat := 1
/-- cyclonedx.go:1065-1070 -/
def quantitativeAnalysis : Nat := 2
/-- cyclonedx.go:1065-1070 -/
def considerations : Nat := 3
end MLModelCard

namespace MLModelCardConsiderations
/-- cyclonedx.go:1072-1080 -/
def users : Nat := 0
/-- cyclonedx.go:1072-1080 -/
def useCases : Nat := 1
/-- cyclonedx.go:1072-1080 -/
def technicalLimitations : Nat := 2
/-- cyclonedx.go:1072-1080 -/
def performanceTradeoffs : Nat := 3
/-- cyclonedx.go:1072-1080 -/
def ethicalConsiderations : Nat := 4
/-- cyclonedx.go:1072-1080 -/
def environmentalConsiderations : Nat := 5
/-- cyclonedx.go:1072-1080 -/
def fairnessAssessments : Nat := 6
end MLModelCardConsiderations

namespace CryptoProperties
/-- cyclonedx.go:500-507 -/
def assetType : Nat := 0
/-- cyclonedx.go:500-507 -/
def algorithmProperties : Nat := 1
/-- cyclonedx.go:500-507 -/
def certificateProperties : Nat := 2
/-- cyclonedx.go:500-507 -/
def relatedCryptoMaterialProperties : Nat := 3
/-- cyclonedx.go:500-507 -/
def protocolProperties : Nat := 4
/-- cyclonedx.go:500-507 -/
def oid : Nat := 5
end CryptoProperties

namespace CryptoAlgorithmProperties
/-- cyclonedx.go:368-382 -/
def primitive : Nat := 0
/-- cyclonedx.go:368-382 -/
def parameterSetIdentifier : Nat := 1
/-- cyclonedx.go:368-382 -/
def algorithmFamily : Nat := 2
/-- cyclonedx.go:368-382 -/
def curve : Nat := 3
/-- cyclonedx.go:368-382 -/
def ellipticCurve : Nat := 4
/-- cyclonedx.go:368-382 -/
def executionEnvironment : Nat := 5
/-- cyclonedx.go:368-382 -/
def implementationPlatform : Nat := 6
/-- cyclonedx.go:368-382 -/
def certificationLevel : Nat := 7
/-- cyclonedx.go:368-382 -/
def mode : Nat := 8
/-- cyclonedx.go:368-382 -/
def padding : Nat := 9
/-- cyclonedx.go:368-382 -/
def cryptoFunctions : Nat := 10
/-- cyclonedx.go:368-382 -/
def classicalSecurityLevel : Nat := 11
/-- cyclonedx.go:368-382 -/
def nistQuantumSecurityLevel : Nat := 12
end CryptoAlgorithmProperties

namespace CertificateProperties
/-- cyclonedx.go:171-191 -/
def serialNumber : Nat := 0
/-- cyclonedx.go:171-191 -/
def subjectName : Nat := 1
/-- cyclonedx.go:171-191 -/
def issuerName : Nat := 2
/-- cyclonedx.go:171-191 -/
def notValidBefore : Nat := 3
/-- cyclonedx.go:171-191 -/
def notValidAfter : Nat := 4
/-- cyclonedx.go:171-191 -/
def signatureAlgorithmRef : Nat := 5
/-- cyclonedx.go:171-191 -/
def subjectPublicKeyRef : Nat := 6
/-- cyclonedx.go:171-191 -/
def certificateFormat : Nat := 7
/-- cyclonedx.go:171-191 -/
def certificateExtension : Nat := 8
/-- cyclonedx.go:171-191 -/
def certificateFileExtension : Nat := 9
/-- cyclonedx.go:171-191 -/
def fingerprint : Nat := 10
/-- cyclonedx.go:171-191 -/
def certificateState : Nat := 11
/-- cyclonedx.go:171-191 -/
def certificateExtensions : Nat := 12
/-- cyclonedx.go:171-191 -/
def relatedCryptographicAssets : Nat := 13
/-- cyclonedx.go:171-191 -/
def creationDate : Nat := 14
/-- cyclonedx.go:171-191 -/
def activationDate : Nat := 15
/-- cyclonedx.go:171-191 -/
def deactivationDate : Nat := 16
/-- cyclonedx.go:171-191 -/
def revocationDate : Nat := 17
/-- cyclonedx.go:171-191 -/
def destructionDate : Nat := 18
end CertificateProperties

namespace RelatedCryptoMaterialProperties
/-- cyclonedx.go:1282-1297 -/
def type : Nat := 0
/-- cyclonedx.go:1282-1297 -/
def id : Nat := 1
/-- cyclonedx.go:1282-1297 -/
def state : Nat := 2
/-- cyclonedx.go:1282-1297 -/
def algorithmRef : Nat := 3
/-- cyclonedx.go:1282-1297 -/
def creationDate : Nat := 4
/-- cyclonedx.go:1282-1297 -/
def activationDate : Nat := 5
/-- cyclonedx.go:1282-1297 -/
def updateDate : Nat := 6
/-- cyclonedx.go:1282-1297 -/
def expirationDate : Nat := 7
/-- cyclonedx.go:1282-1297 -/
def value : Nat := 8
/-- cyclonedx.go:1282-1297 -/
def size : Nat := 9
/-- cyclonedx.go:1282-1297 -/
def format : Nat := 10
/-- cyclonedx.go:1282-1297 -/
def securedBy : Nat := 11
/-- cyclonedx.go:1282-1297 -/
def fingerprint : Nat := 12
/-- cyclonedx.go:1282-1297 -/
def relatedCryptographicAssets : Nat := 13
end RelatedCryptoMaterialProperties

namespace CryptoProtocolProperties
/-- cyclonedx.go:509-516 -/
def type : Nat := 0
/-- cyclonedx.go:509-516 -/
def version : Nat := 1
/-- cyclonedx.go:509-516 -/
def cipherSuites : Nat := 2
/-- cyclonedx.go:509-516 -/
def ikev2TransformTypes : Nat := 3
/-- cyclonedx.go:509-516 -/
def cryptoRefArray : Nat := 4
/-- cyclonedx.go:509-516 -/
def relatedCryptographicAssets : Nat := 5
end CryptoProtocolProperties

namespace CipherSuite
/-- cyclonedx.go:205-211 -/
def name : Nat := 0
/-- cyclonedx.go:205-211 -/
def algorithms : Nat := 1
/-- cyclonedx.go:205-211 -/
def identifiers : Nat := 2
/-- cyclonedx.go:205-211 -/
def tlsGroups : Nat := 3
/-- cyclonedx.go:205-211 -/
def tlsSignatureSchemes : Nat := 4
end CipherSuite

namespace Service
/-- cyclonedx.go:1362-1382 -/
def bomRef : Nat := 0
/-- cyclonedx.go:1362-1382 -/
def provider : Nat := 1
/-- cyclonedx.go:1362-1382 -/
def group : Nat := 2
/-- cyclonedx.go:1362-1382 -/
def name : Nat := 3
/-- cyclonedx.go:1362-1382 -/
def version : Nat := 4
/-- cyclonedx.go:1362-1382 -/
def description : Nat := 5
/-- cyclonedx.go:1362-1382 -/
def endpoints : Nat := 6
/-- cyclonedx.go:1362-1382 -/
def authenticated : Nat := 7
/-- cyclonedx.go:1362-1382 -/
def crossesTrustBoundary : Nat := 8
/-- cyclonedx.go:1362-1382 -/
def data : Nat := 9
/-- cyclonedx.go:1362-1382 -/
def licenses : Nat := 10
/-- cyclonedx.go:1362-1382 -/
def externalReferences : Nat := 11
/-- cyclonedx.go:1362-1382 -/
def properties : Nat := 12
/-- cyclonedx.go:1362-1382 -/
def services : Nat := 13
/-- cyclonedx.go:1362-1382 -/
def releaseNotes : Nat := 14
/-- cyclonedx.go:1362-1382 -/
def tags : Nat := 15
/-- cyclonedx.go:1362-1382 -/
def trustZone : Nat := 16
/-- cyclonedx.go:1362-1382 -/
def patentAssertions : Nat := 17
/-- cyclonedx.go:1362-1382 -/
def signature : Nat := 18
end Service

namespace ToolsChoice
/-- cyclonedx.go:1610-1614 -/
def tools : Nat := 0
/-- cyclonedx.go:1610-1614 -/
def components : Nat := 1
/-- cyclonedx.go:1610-1614 -/
def services : Nat := 2
end ToolsChoice

namespace Tool
/-- cyclonedx.go:1594-1600 -/
def vendor : Nat := 0
/-- cyclonedx.go:1594-1600 -/
def name : Nat := 1
/-- cyclonedx.go:1594-1600 -/
def version : Nat := 2
/-- cyclonedx.go:1594-1600 -/
def hashes : Nat := 3
/-- cyclonedx.go:1594-1600 -/
def externalReferences : Nat := 4
end Tool

namespace Vulnerability
/-- cyclonedx.go:1634-1656 -/
def bomRef : Nat := 0
/-- cyclonedx.go:1634-1656 -/
def id : Nat := 1
/-- cyclonedx.go:1634-1656 -/
def source : Nat := 2
/-- cyclonedx.go:1634-1656 -/
def references : Nat := 3
/-- cyclonedx.go:1634-1656 -/
def ratings : Nat := 4
/-- cyclonedx.go:1634-1656 -/
def cwes : Nat := 5
/-- cyclonedx.go:1634-1656 -/
def description : Nat := 6
/-- cyclonedx.go:1634-1656 -/
def detail : Nat := 7
/-- cyclonedx.go:1634-1656 -/
def recommendation : Nat := 8
/-- cyclonedx.go:1634-1656 -/
def workaround : Nat := 9
/-- cyclonedx.go:1634-1656 -/
def proofOfConcept : Nat := 10
/-- cyclonedx.go:1634-1656 -/
def advisories : Nat := 11
/-- cyclonedx.go:1634-1656 -/
def created : Nat := 12
/-- cyclonedx.go:1634-1656 -/
def published : Nat := 13
/-- cyclonedx.go:1634-1656 -/
def updated : Nat := 14
/-- cyclonedx.go:1634-1656 -/
def rejected : Nat := 15
/-- cyclonedx.go:1634-1656 -/
def credits : Nat := 16
/-- cyclonedx.go:1634-1656 -/
def tools : Nat := 17
/-- cyclonedx.go:1634-1656 -/
def analysis : Nat := 18
/-- cyclonedx.go:1634-1656 -/
def affects : Nat := 19
/-- cyclonedx.go:1634-1656 -/
def properties : Nat := 20
end Vulnerability

namespace VulnerabilityAnalysis
/-- cyclonedx.go:1658-1665 -/
def state : Nat := 0
/-- cyclonedx.go:1658-1665 -/
def justification : Nat := 1
/-- cyclonedx.go:1658-1665 -/
def response : Nat := 2
/-- cyclonedx.go:1658-1665 -/
def detail : Nat := 3
/-- cyclonedx.go:1658-1665 -/
def firstIssued : Nat := 4
/-- cyclonedx.go:1658-1665 -/
def lastUpdated : Nat := 5
end VulnerabilityAnalysis

namespace VulnerabilityRating
/-- cyclonedx.go:1667-1674 -/
def source : Nat := 0
/-- cyclonedx.go:1667-1674 -/
def score : Nat := 1
/-- cyclonedx.go:1667-1674 -/
def severity : Nat := 2
/-- cyclonedx.go:1667-1674 -/
def method : Nat := 3
/-- cyclonedx.go:1667-1674 -/
def vector : Nat := 4
/-- cyclonedx.go:1667-1674 -/
def justification : Nat := 5
end VulnerabilityRating

namespace Credits
/-- cyclonedx.go:349-352 -/
def organizations : Nat := 0
/-- cyclonedx.go:349-352 -/
def individuals : Nat := 1
end Credits

namespace Annotation
/-- cyclonedx.go:51-58 -/
def bomRef : Nat := 0
/-- cyclonedx.go:51-58 -/
def subjects : Nat := 1
/-- cyclonedx.go:51-58 -/
def annotator : Nat := 2
/-- cyclonedx.go:51-58 -/
def timestamp : Nat := 3
/-- cyclonedx.go:51-58 -/
def text : Nat := 4
/-- cyclonedx.go:51-58 -/
def signature : Nat := 5
end Annotation

namespace Annotator
/-- cyclonedx.go:60-65 -/
def organization : Nat := 0
/-- cyclonedx.go:60-65 -/
def individual : Nat := 1
/-- cyclonedx.go:60-65 -/
def component : Nat := 2
/-- cyclonedx.go:60-65 -/
def service : Nat := 3
end Annotator

namespace Dependency
/-- cyclonedx.go:644-648 -/
def ref : Nat := 0
/-- cyclonedx.go:644-648 -/
def dependencies : Nat := 1
/-- cyclonedx.go:644-648 -/
def provides : Nat := 2
end Dependency

namespace Definitions
/-- cyclonedx.go:598-601 -/
def standards : Nat := 0
/-- cyclonedx.go:598-601 -/
def patents : Nat := 1
end Definitions

end Verif.Heap.F
