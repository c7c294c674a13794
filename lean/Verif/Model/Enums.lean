import Verif.Model.Types

/-!
# The string constants of the library

GENERATED by `tools/gen_types.py` from the `const` blocks of `/repo/cyclonedx.go`; do not edit by hand.
For every named string type `T` the list `T.all` holds all its declared constants.
-/

namespace Verif

/-- cyclonedx.go:216 -/
def ComponentTypeApplication : ComponentType := "application"
/-- cyclonedx.go:217 -/
def ComponentTypeContainer : ComponentType := "container"
/-- cyclonedx.go:218 -/
def ComponentTypeCryptographicAsset : ComponentType := "cryptographic-asset"
/-- cyclonedx.go:219 -/
def ComponentTypeData : ComponentType := "data"
/-- cyclonedx.go:220 -/
def ComponentTypeDevice : ComponentType := "device"
/-- cyclonedx.go:221 -/
def ComponentTypeDeviceDriver : ComponentType := "device-driver"
/-- cyclonedx.go:222 -/
def ComponentTypeFile : ComponentType := "file"
/-- cyclonedx.go:223 -/
def ComponentTypeFirmware : ComponentType := "firmware"
/-- cyclonedx.go:224 -/
def ComponentTypeFramework : ComponentType := "framework"
/-- cyclonedx.go:225 -/
def ComponentTypeLibrary : ComponentType := "library"
/-- cyclonedx.go:226 -/
def ComponentTypeMachineLearningModel : ComponentType := "machine-learning-model"
/-- cyclonedx.go:227 -/
def ComponentTypeOS : ComponentType := "operating-system"
/-- cyclonedx.go:228 -/
def ComponentTypePlatform : ComponentType := "platform"
/-- cyclonedx.go:314 -/
def ComponentDataTypeConfiguration : ComponentDataType := "configuration"
/-- cyclonedx.go:315 -/
def ComponentDataTypeDataset : ComponentDataType := "dataset"
/-- cyclonedx.go:316 -/
def ComponentDataTypeDefinition : ComponentDataType := "definition"
/-- cyclonedx.go:317 -/
def ComponentDataTypeOther : ComponentDataType := "other"
/-- cyclonedx.go:318 -/
def ComponentDataTypeSourceCode : ComponentDataType := "source-code"
/-- cyclonedx.go:333 -/
def CompositionAggregateComplete : CompositionAggregate := "complete"
/-- cyclonedx.go:334 -/
def CompositionAggregateIncomplete : CompositionAggregate := "incomplete"
/-- cyclonedx.go:335 -/
def CompositionAggregateIncompleteFirstPartyOnly : CompositionAggregate := "incomplete_first_party_only"
/-- cyclonedx.go:336 -/
def CompositionAggregateIncompleteFirstPartyOpenSourceOnly : CompositionAggregate := "incomplete_first_party_opensource_only"
/-- cyclonedx.go:337 -/
def CompositionAggregateIncompleteFirstPartyProprietaryOnly : CompositionAggregate := "incomplete_first_party_proprietary_only"
/-- cyclonedx.go:338 -/
def CompositionAggregateIncompleteThirdPartyOnly : CompositionAggregate := "incomplete_third_party_only"
/-- cyclonedx.go:339 -/
def CompositionAggregateIncompleteThirdPartyOpenSourceOnly : CompositionAggregate := "incomplete_third_party_opensource_only"
/-- cyclonedx.go:340 -/
def CompositionAggregateIncompleteThirdPartyProprietaryOnly : CompositionAggregate := "incomplete_third_party_proprietary_only"
/-- cyclonedx.go:341 -/
def CompositionAggregateNotSpecified : CompositionAggregate := "not_specified"
/-- cyclonedx.go:342 -/
def CompositionAggregateUnknown : CompositionAggregate := "unknown"
/-- cyclonedx.go:357 -/
def CryptoAlgorithmModeCBC : CryptoAlgorithmMode := "cbc"
/-- cyclonedx.go:358 -/
def CryptoAlgorithmModeECB : CryptoAlgorithmMode := "ecb"
/-- cyclonedx.go:359 -/
def CryptoAlgorithmModeCCM : CryptoAlgorithmMode := "ccm"
/-- cyclonedx.go:360 -/
def CryptoAlgorithmModeGCM : CryptoAlgorithmMode := "gcm"
/-- cyclonedx.go:361 -/
def CryptoAlgorithmModeCFB : CryptoAlgorithmMode := "cfb"
/-- cyclonedx.go:362 -/
def CryptoAlgorithmModeOFB : CryptoAlgorithmMode := "ofb"
/-- cyclonedx.go:363 -/
def CryptoAlgorithmModeCTR : CryptoAlgorithmMode := "ctr"
/-- cyclonedx.go:364 -/
def CryptoAlgorithmModeOther : CryptoAlgorithmMode := "other"
/-- cyclonedx.go:365 -/
def CryptoAlgorithmModeUnknown : CryptoAlgorithmMode := "unknown"
/-- cyclonedx.go:387 -/
def CryptoAssetTypeAlgorithm : CryptoAssetType := "algorithm"
/-- cyclonedx.go:388 -/
def CryptoAssetTypeCertificate : CryptoAssetType := "certificate"
/-- cyclonedx.go:389 -/
def CryptoAssetTypeProtocol : CryptoAssetType := "protocol"
/-- cyclonedx.go:390 -/
def CryptoAssetTypeRelatedCryptoMaterial : CryptoAssetType := "related-crypto-material"
/-- cyclonedx.go:396 -/
def CryptoCertificationLevelNone : CryptoCertificationLevel := "none"
/-- cyclonedx.go:397 -/
def CryptoCertificationLevelFIPS140_1_L1 : CryptoCertificationLevel := "fips140-1-l1"
/-- cyclonedx.go:398 -/
def CryptoCertificationLevelFIPS140_1_L2 : CryptoCertificationLevel := "fips140-1-l2"
/-- cyclonedx.go:399 -/
def CryptoCertificationLevelFIPS140_1_L3 : CryptoCertificationLevel := "fips140-1-l3"
/-- cyclonedx.go:400 -/
def CryptoCertificationLevelFIPS140_1_L4 : CryptoCertificationLevel := "fips140-1-l4"
/-- cyclonedx.go:401 -/
def CryptoCertificationLevelFIPS140_2_L1 : CryptoCertificationLevel := "fips140-2-l1"
/-- cyclonedx.go:402 -/
def CryptoCertificationLevelFIPS140_2_L2 : CryptoCertificationLevel := "fips140-2-l2"
/-- cyclonedx.go:403 -/
def CryptoCertificationLevelFIPS140_2_L3 : CryptoCertificationLevel := "fips140-2-l3"
/-- cyclonedx.go:404 -/
def CryptoCertificationLevelFIPS140_2_L4 : CryptoCertificationLevel := "fips140-2-l4"
/-- cyclonedx.go:405 -/
def CryptoCertificationLevelFIPS140_3_L1 : CryptoCertificationLevel := "fips140-3-l1"
/-- cyclonedx.go:406 -/
def CryptoCertificationLevelFIPS140_3_L2 : CryptoCertificationLevel := "fips140-3-l2"
/-- cyclonedx.go:407 -/
def CryptoCertificationLevelFIPS140_3_L3 : CryptoCertificationLevel := "fips140-3-l3"
/-- cyclonedx.go:408 -/
def CryptoCertificationLevelFIPS140_3_L4 : CryptoCertificationLevel := "fips140-3-l4"
/-- cyclonedx.go:409 -/
def CryptoCertificationLevelCCEAL1 : CryptoCertificationLevel := "cc-eal1"
/-- cyclonedx.go:410 -/
def CryptoCertificationLevelCCEAL1Plus : CryptoCertificationLevel := "cc-eal1+"
/-- cyclonedx.go:411 -/
def CryptoCertificationLevelCCEAL2 : CryptoCertificationLevel := "cc-eal2"
/-- cyclonedx.go:412 -/
def CryptoCertificationLevelCCEAL2Plus : CryptoCertificationLevel := "cc-eal2+"
/-- cyclonedx.go:413 -/
def CryptoCertificationLevelCCEAL3 : CryptoCertificationLevel := "cc-eal3"
/-- cyclonedx.go:414 -/
def CryptoCertificationLevelCCEAL3Plus : CryptoCertificationLevel := "cc-eal3+"
/-- cyclonedx.go:415 -/
def CryptoCertificationLevelCCEAL4 : CryptoCertificationLevel := "cc-eal4"
/-- cyclonedx.go:416 -/
def CryptoCertificationLevelCCEAL4Plus : CryptoCertificationLevel := "cc-eal4+"
/-- cyclonedx.go:417 -/
def CryptoCertificationLevelCCEAL5 : CryptoCertificationLevel := "cc-eal5"
/-- cyclonedx.go:418 -/
def CryptoCertificationLevelCCEAL5Plus : CryptoCertificationLevel := "cc-eal5+"
/-- cyclonedx.go:419 -/
def CryptoCertificationLevelCCEAL6 : CryptoCertificationLevel := "cc-eal6"
/-- cyclonedx.go:420 -/
def CryptoCertificationLevelCCEAL6Plus : CryptoCertificationLevel := "cc-eal6+"
/-- cyclonedx.go:421 -/
def CryptoCertificationLevelCCEAL7 : CryptoCertificationLevel := "cc-eal7"
/-- cyclonedx.go:422 -/
def CryptoCertificationLevelCCEAL7Plus : CryptoCertificationLevel := "cc-eal7+"
/-- cyclonedx.go:423 -/
def CryptoCertificationLevelOther : CryptoCertificationLevel := "other"
/-- cyclonedx.go:424 -/
def CryptoCertificationLevelUnknown : CryptoCertificationLevel := "unknown"
/-- cyclonedx.go:430 -/
def CryptoExecutionEnvironmentSoftwarePlainRAM : CryptoExecutionEnvironment := "software-plain-ram"
/-- cyclonedx.go:431 -/
def CryptoExecutionEnvironmentSoftwareEncryptedRAM : CryptoExecutionEnvironment := "software-encrypted-ram"
/-- cyclonedx.go:432 -/
def CryptoExecutionEnvironmentSoftwareTEE : CryptoExecutionEnvironment := "software-tee"
/-- cyclonedx.go:433 -/
def CryptoExecutionEnvironmentHardware : CryptoExecutionEnvironment := "hardware"
/-- cyclonedx.go:434 -/
def CryptoExecutionEnvironmentOther : CryptoExecutionEnvironment := "other"
/-- cyclonedx.go:435 -/
def CryptoExecutionEnvironmentUnknown : CryptoExecutionEnvironment := "unknown"
/-- cyclonedx.go:441 -/
def CryptoFunctionGenerate : CryptoFunction := "generate"
/-- cyclonedx.go:442 -/
def CryptoFunctionKeygen : CryptoFunction := "keygen"
/-- cyclonedx.go:443 -/
def CryptoFunctionEncrypt : CryptoFunction := "encrypt"
/-- cyclonedx.go:444 -/
def CryptoFunctionDecrypt : CryptoFunction := "decrypt"
/-- cyclonedx.go:445 -/
def CryptoFunctionDigest : CryptoFunction := "digest"
/-- cyclonedx.go:446 -/
def CryptoFunctionTag : CryptoFunction := "tag"
/-- cyclonedx.go:447 -/
def CryptoFunctionKeyderive : CryptoFunction := "keyderive"
/-- cyclonedx.go:448 -/
def CryptoFunctionSign : CryptoFunction := "sign"
/-- cyclonedx.go:449 -/
def CryptoFunctionVerify : CryptoFunction := "verify"
/-- cyclonedx.go:450 -/
def CryptoFunctionEncapsulate : CryptoFunction := "encapsulate"
/-- cyclonedx.go:451 -/
def CryptoFunctionDecapsulate : CryptoFunction := "decapsulate"
/-- cyclonedx.go:452 -/
def CryptoFunctionOther : CryptoFunction := "other"
/-- cyclonedx.go:453 -/
def CryptoFunctionUnknown : CryptoFunction := "unknown"
/-- cyclonedx.go:459 -/
def CryptoKeyStatePreActivation : CryptoKeyState := "pre-activation"
/-- cyclonedx.go:460 -/
def CryptoKeyStateActive : CryptoKeyState := "active"
/-- cyclonedx.go:461 -/
def CryptoKeyStateSuspended : CryptoKeyState := "suspended"
/-- cyclonedx.go:462 -/
def CryptoKeyStateDeactivated : CryptoKeyState := "deactivated"
/-- cyclonedx.go:463 -/
def CryptoKeyStateCompromised : CryptoKeyState := "compromised"
/-- cyclonedx.go:464 -/
def CryptoKeyStateDestroyed : CryptoKeyState := "destroyed"
/-- cyclonedx.go:470 -/
def CryptoPaddingPKCS5 : CryptoPadding := "pkcs5"
/-- cyclonedx.go:471 -/
def CryptoPaddingPKCS7 : CryptoPadding := "pkcs7"
/-- cyclonedx.go:472 -/
def CryptoPaddingPKCS1v15 : CryptoPadding := "pkcs1v15"
/-- cyclonedx.go:473 -/
def CryptoPaddingOAEP : CryptoPadding := "oaep"
/-- cyclonedx.go:474 -/
def CryptoPaddingRaw : CryptoPadding := "raw"
/-- cyclonedx.go:475 -/
def CryptoPaddingOther : CryptoPadding := "other"
/-- cyclonedx.go:476 -/
def CryptoPaddingUnknown : CryptoPadding := "unknown"
/-- cyclonedx.go:482 -/
def CryptoPrimitiveDRBG : CryptoPrimitive := "drbg"
/-- cyclonedx.go:483 -/
def CryptoPrimitiveMAC : CryptoPrimitive := "mac"
/-- cyclonedx.go:484 -/
def CryptoPrimitiveBlockCipher : CryptoPrimitive := "block-cipher"
/-- cyclonedx.go:485 -/
def CryptoPrimitiveStreamCipher : CryptoPrimitive := "stream-cipher"
/-- cyclonedx.go:486 -/
def CryptoPrimitiveSignature : CryptoPrimitive := "signature"
/-- cyclonedx.go:487 -/
def CryptoPrimitiveHash : CryptoPrimitive := "hash"
/-- cyclonedx.go:488 -/
def CryptoPrimitivePKE : CryptoPrimitive := "pke"
/-- cyclonedx.go:489 -/
def CryptoPrimitiveXOF : CryptoPrimitive := "xof"
/-- cyclonedx.go:490 -/
def CryptoPrimitiveKDF : CryptoPrimitive := "kdf"
/-- cyclonedx.go:491 -/
def CryptoPrimitiveKeyAgree : CryptoPrimitive := "key-agree"
/-- cyclonedx.go:492 -/
def CryptoPrimitiveKEM : CryptoPrimitive := "kem"
/-- cyclonedx.go:493 -/
def CryptoPrimitiveAE : CryptoPrimitive := "ae"
/-- cyclonedx.go:494 -/
def CryptoPrimitiveCombiner : CryptoPrimitive := "combiner"
/-- cyclonedx.go:495 -/
def CryptoPrimitiveKeyWrap : CryptoPrimitive := "key-wrap"
/-- cyclonedx.go:496 -/
def CryptoPrimitiveOther : CryptoPrimitive := "other"
/-- cyclonedx.go:497 -/
def CryptoPrimitiveUnknown : CryptoPrimitive := "unknown"
/-- cyclonedx.go:521 -/
def CryptoProtocolTypeTLS : CryptoProtocolType := "tls"
/-- cyclonedx.go:522 -/
def CryptoProtocolTypeSSH : CryptoProtocolType := "ssh"
/-- cyclonedx.go:523 -/
def CryptoProtocolTypeIPSec : CryptoProtocolType := "ipsec"
/-- cyclonedx.go:524 -/
def CryptoProtocolTypeIKE : CryptoProtocolType := "ike"
/-- cyclonedx.go:525 -/
def CryptoProtocolTypeSSTP : CryptoProtocolType := "sstp"
/-- cyclonedx.go:526 -/
def CryptoProtocolTypeWPA : CryptoProtocolType := "wpa"
/-- cyclonedx.go:527 -/
def CryptoProtocolTypeDTLS : CryptoProtocolType := "dtls"
/-- cyclonedx.go:528 -/
def CryptoProtocolTypeQUIC : CryptoProtocolType := "quic"
/-- cyclonedx.go:529 -/
def CryptoProtocolTypeEAPAKA : CryptoProtocolType := "eap-aka"
/-- cyclonedx.go:530 -/
def CryptoProtocolTypeEAPAKAPrime : CryptoProtocolType := "eap-aka-prime"
/-- cyclonedx.go:531 -/
def CryptoProtocolTypePRINS : CryptoProtocolType := "prins"
/-- cyclonedx.go:532 -/
def CryptoProtocolType5GAKA : CryptoProtocolType := "5g-aka"
/-- cyclonedx.go:533 -/
def CryptoProtocolTypeOther : CryptoProtocolType := "other"
/-- cyclonedx.go:534 -/
def CryptoProtocolTypeUnknown : CryptoProtocolType := "unknown"
/-- cyclonedx.go:564 -/
def DataFlowBidirectional : DataFlow := "bi-directional"
/-- cyclonedx.go:565 -/
def DataFlowInbound : DataFlow := "inbound"
/-- cyclonedx.go:566 -/
def DataFlowOutbound : DataFlow := "outbound"
/-- cyclonedx.go:567 -/
def DataFlowUnknown : DataFlow := "unknown"
/-- cyclonedx.go:699 -/
def EvidenceIdentityFieldTypeCPE : EvidenceIdentityFieldType := "cpe"
/-- cyclonedx.go:700 -/
def EvidenceIdentityFieldTypeGroup : EvidenceIdentityFieldType := "group"
/-- cyclonedx.go:701 -/
def EvidenceIdentityFieldTypeHash : EvidenceIdentityFieldType := "hash"
/-- cyclonedx.go:702 -/
def EvidenceIdentityFieldTypeName : EvidenceIdentityFieldType := "name"
/-- cyclonedx.go:703 -/
def EvidenceIdentityFieldTypePURL : EvidenceIdentityFieldType := "purl"
/-- cyclonedx.go:704 -/
def EvidenceIdentityFieldTypeOmniborID : EvidenceIdentityFieldType := "omniborId"
/-- cyclonedx.go:705 -/
def EvidenceIdentityFieldTypeSWHID : EvidenceIdentityFieldType := "swhid"
/-- cyclonedx.go:706 -/
def EvidenceIdentityFieldTypeSWID : EvidenceIdentityFieldType := "swid"
/-- cyclonedx.go:707 -/
def EvidenceIdentityFieldTypeVersion : EvidenceIdentityFieldType := "version"
/-- cyclonedx.go:719 -/
def EvidenceIdentityTechniqueASTFingerprint : EvidenceIdentityTechnique := "ast-fingerprint"
/-- cyclonedx.go:720 -/
def EvidenceIdentityTechniqueAttestation : EvidenceIdentityTechnique := "attestation"
/-- cyclonedx.go:721 -/
def EvidenceIdentityTechniqueBinaryAnalysis : EvidenceIdentityTechnique := "binary-analysis"
/-- cyclonedx.go:722 -/
def EvidenceIdentityTechniqueDynamicAnalysis : EvidenceIdentityTechnique := "dynamic-analysis"
/-- cyclonedx.go:723 -/
def EvidenceIdentityTechniqueFilename : EvidenceIdentityTechnique := "filename"
/-- cyclonedx.go:724 -/
def EvidenceIdentityTechniqueHashComparison : EvidenceIdentityTechnique := "hash-comparison"
/-- cyclonedx.go:725 -/
def EvidenceIdentityTechniqueInstrumentation : EvidenceIdentityTechnique := "instrumentation"
/-- cyclonedx.go:726 -/
def EvidenceIdentityTechniqueManifestAnalysis : EvidenceIdentityTechnique := "manifest-analysis"
/-- cyclonedx.go:727 -/
def EvidenceIdentityTechniqueOther : EvidenceIdentityTechnique := "other"
/-- cyclonedx.go:728 -/
def EvidenceIdentityTechniqueSourceCodeAnalysis : EvidenceIdentityTechnique := "source-code-analysis"
/-- cyclonedx.go:751 -/
def ERTypeAdversaryModel : ExternalReferenceType := "adversary-model"
/-- cyclonedx.go:752 -/
def ERTypeAdvisories : ExternalReferenceType := "advisories"
/-- cyclonedx.go:753 -/
def ERTypeAttestation : ExternalReferenceType := "attestation"
/-- cyclonedx.go:754 -/
def ERTypeBOM : ExternalReferenceType := "bom"
/-- cyclonedx.go:755 -/
def ERTypeBuildMeta : ExternalReferenceType := "build-meta"
/-- cyclonedx.go:756 -/
def ERTypeBuildSystem : ExternalReferenceType := "build-system"
/-- cyclonedx.go:757 -/
def ERTypeCertificationReport : ExternalReferenceType := "certification-report"
/-- cyclonedx.go:758 -/
def ERTypeChat : ExternalReferenceType := "chat"
/-- cyclonedx.go:759 -/
def ERTypeConfiguration : ExternalReferenceType := "configuration"
/-- cyclonedx.go:760 -/
def ERTypeCodifiedInfrastructure : ExternalReferenceType := "codified-infrastructure"
/-- cyclonedx.go:761 -/
def ERTypeComponentAnalysisReport : ExternalReferenceType := "component-analysis-report"
/-- cyclonedx.go:762 -/
def ERTypeDistribution : ExternalReferenceType := "distribution"
/-- cyclonedx.go:763 -/
def ERTypeDistributionIntake : ExternalReferenceType := "distribution-intake"
/-- cyclonedx.go:764 -/
def ERTypeDocumentation : ExternalReferenceType := "documentation"
/-- cyclonedx.go:765 -/
def ERTypeDynamicAnalysisReport : ExternalReferenceType := "dynamic-analysis-report"
/-- cyclonedx.go:766 -/
def ERTypeDigitalSignature : ExternalReferenceType := "digital-signature"
/-- cyclonedx.go:767 -/
def ERTypeElectronicSignature : ExternalReferenceType := "electronic-signature"
/-- cyclonedx.go:768 -/
def ERTypeEvidence : ExternalReferenceType := "evidence"
/-- cyclonedx.go:769 -/
def ERTypeExploitabilityStatement : ExternalReferenceType := "exploitability-statement"
/-- cyclonedx.go:770 -/
def ERTypeFormulation : ExternalReferenceType := "formulation"
/-- cyclonedx.go:771 -/
def ERTypeIssueTracker : ExternalReferenceType := "issue-tracker"
/-- cyclonedx.go:772 -/
def ERTypeLicense : ExternalReferenceType := "license"
/-- cyclonedx.go:773 -/
def ERTypeLog : ExternalReferenceType := "log"
/-- cyclonedx.go:774 -/
def ERTypeMailingList : ExternalReferenceType := "mailing-list"
/-- cyclonedx.go:775 -/
def ERTypeMaturityReport : ExternalReferenceType := "maturity-report"
/-- cyclonedx.go:776 -/
def ERTypeModelCard : ExternalReferenceType := "model-card"
/-- cyclonedx.go:777 -/
def ERTypeOther : ExternalReferenceType := "other"
/-- cyclonedx.go:778 -/
def ERTypePentestReport : ExternalReferenceType := "pentest-report"
/-- cyclonedx.go:779 -/
def ERTypePOAM : ExternalReferenceType := "poam"
/-- cyclonedx.go:780 -/
def ERTypeQualityMetrics : ExternalReferenceType := "quality-metrics"
/-- cyclonedx.go:781 -/
def ERTypeReleaseNotes : ExternalReferenceType := "release-notes"
/-- cyclonedx.go:782 -/
def ERTypeRiskAssessment : ExternalReferenceType := "risk-assessment"
/-- cyclonedx.go:783 -/
def ERTypeRFC9116 : ExternalReferenceType := "rfc-9116"
/-- cyclonedx.go:784 -/
def ERTypeRuntimeAnalysisReport : ExternalReferenceType := "runtime-analysis-report"
/-- cyclonedx.go:785 -/
def ERTypeSecurityContact : ExternalReferenceType := "security-contact"
/-- cyclonedx.go:786 -/
def ERTypeSocial : ExternalReferenceType := "social"
/-- cyclonedx.go:787 -/
def ERTypeSourceDistribution : ExternalReferenceType := "source-distribution"
/-- cyclonedx.go:788 -/
def ERTypeStaticAnalysisReport : ExternalReferenceType := "static-analysis-report"
/-- cyclonedx.go:789 -/
def ERTypeSupport : ExternalReferenceType := "support"
/-- cyclonedx.go:790 -/
def ERTypeThreatModel : ExternalReferenceType := "threat-model"
/-- cyclonedx.go:791 -/
def ERTypeVCS : ExternalReferenceType := "vcs"
/-- cyclonedx.go:792 -/
def ERTypeVulnerabilityAssertion : ExternalReferenceType := "vulnerability-assertion"
/-- cyclonedx.go:793 -/
def ERTypeWebsite : ExternalReferenceType := "website"
/-- cyclonedx.go:794 -/
def ERTypePatent : ExternalReferenceType := "patent"
/-- cyclonedx.go:795 -/
def ERTypePatentFamily : ExternalReferenceType := "patent-family"
/-- cyclonedx.go:796 -/
def ERTypePatentAssertion : ExternalReferenceType := "patent-assertion"
/-- cyclonedx.go:797 -/
def ERTypeCitation : ExternalReferenceType := "citation"
/-- cyclonedx.go:816 -/
def HashAlgoMD5 : HashAlgorithm := "MD5"
/-- cyclonedx.go:817 -/
def HashAlgoSHA1 : HashAlgorithm := "SHA-1"
/-- cyclonedx.go:818 -/
def HashAlgoSHA256 : HashAlgorithm := "SHA-256"
/-- cyclonedx.go:819 -/
def HashAlgoSHA384 : HashAlgorithm := "SHA-384"
/-- cyclonedx.go:820 -/
def HashAlgoSHA512 : HashAlgorithm := "SHA-512"
/-- cyclonedx.go:821 -/
def HashAlgoSHA3_256 : HashAlgorithm := "SHA3-256"
/-- cyclonedx.go:822 -/
def HashAlgoSHA3_384 : HashAlgorithm := "SHA3-384"
/-- cyclonedx.go:823 -/
def HashAlgoSHA3_512 : HashAlgorithm := "SHA3-512"
/-- cyclonedx.go:824 -/
def HashAlgoBlake2b_256 : HashAlgorithm := "BLAKE2b-256"
/-- cyclonedx.go:825 -/
def HashAlgoBlake2b_384 : HashAlgorithm := "BLAKE2b-384"
/-- cyclonedx.go:826 -/
def HashAlgoBlake2b_512 : HashAlgorithm := "BLAKE2b-512"
/-- cyclonedx.go:827 -/
def HashAlgoBlake3 : HashAlgorithm := "BLAKE3"
/-- cyclonedx.go:828 -/
def HashAlgoStreebog256 : HashAlgorithm := "Streebog-256"
/-- cyclonedx.go:829 -/
def HashAlgoStreebog512 : HashAlgorithm := "Streebog-512"
/-- cyclonedx.go:841 -/
def IAJCodeNotPresent : ImpactAnalysisJustification := "code_not_present"
/-- cyclonedx.go:842 -/
def IAJCodeNotReachable : ImpactAnalysisJustification := "code_not_reachable"
/-- cyclonedx.go:843 -/
def IAJRequiresConfiguration : ImpactAnalysisJustification := "requires_configuration"
/-- cyclonedx.go:844 -/
def IAJRequiresDependency : ImpactAnalysisJustification := "requires_dependency"
/-- cyclonedx.go:845 -/
def IAJRequiresEnvironment : ImpactAnalysisJustification := "requires_environment"
/-- cyclonedx.go:846 -/
def IAJProtectedByCompiler : ImpactAnalysisJustification := "protected_by_compiler"
/-- cyclonedx.go:847 -/
def IAJProtectedAtRuntime : ImpactAnalysisJustification := "protected_at_runtime"
/-- cyclonedx.go:848 -/
def IAJProtectedAtPerimeter : ImpactAnalysisJustification := "protected_at_perimeter"
/-- cyclonedx.go:849 -/
def IAJProtectedByMitigatingControl : ImpactAnalysisJustification := "protected_by_mitigating_control"
/-- cyclonedx.go:855 -/
def IARCanNotFix : ImpactAnalysisResponse := "can_not_fix"
/-- cyclonedx.go:856 -/
def IARWillNotFix : ImpactAnalysisResponse := "will_not_fix"
/-- cyclonedx.go:857 -/
def IARUpdate : ImpactAnalysisResponse := "update"
/-- cyclonedx.go:858 -/
def IARRollback : ImpactAnalysisResponse := "rollback"
/-- cyclonedx.go:859 -/
def IARWorkaroundAvailable : ImpactAnalysisResponse := "workaround_available"
/-- cyclonedx.go:865 -/
def IASResolved : ImpactAnalysisState := "resolved"
/-- cyclonedx.go:866 -/
def IASResolvedWithPedigree : ImpactAnalysisState := "resolved_with_pedigree"
/-- cyclonedx.go:867 -/
def IASExploitable : ImpactAnalysisState := "exploitable"
/-- cyclonedx.go:868 -/
def IASInTriage : ImpactAnalysisState := "in_triage"
/-- cyclonedx.go:869 -/
def IASFalsePositive : ImpactAnalysisState := "false_positive"
/-- cyclonedx.go:870 -/
def IASNotAffected : ImpactAnalysisState := "not_affected"
/-- cyclonedx.go:876 -/
def ImplementationPlatformGeneric : ImplementationPlatform := "generic"
/-- cyclonedx.go:877 -/
def ImplementationPlatformX86_32 : ImplementationPlatform := "x86_32"
/-- cyclonedx.go:878 -/
def ImplementationPlatformX86_64 : ImplementationPlatform := "x86_64"
/-- cyclonedx.go:879 -/
def ImplementationPlatformARMv7A : ImplementationPlatform := "armv7-a"
/-- cyclonedx.go:880 -/
def ImplementationPlatformARMv7M : ImplementationPlatform := "armv7-m"
/-- cyclonedx.go:881 -/
def ImplementationPlatformARMv8A : ImplementationPlatform := "armv8-a"
/-- cyclonedx.go:882 -/
def ImplementationPlatformARMv8M : ImplementationPlatform := "armv8-m"
/-- cyclonedx.go:883 -/
def ImplementationPlatformARMv9A : ImplementationPlatform := "armv9-a"
/-- cyclonedx.go:884 -/
def ImplementationPlatformARMv9M : ImplementationPlatform := "armv9-m"
/-- cyclonedx.go:885 -/
def ImplementationPlatformS390x : ImplementationPlatform := "s390x"
/-- cyclonedx.go:886 -/
def ImplementationPlatformPPC64 : ImplementationPlatform := "ppc64"
/-- cyclonedx.go:887 -/
def ImplementationPlatformPPC64LE : ImplementationPlatform := "ppc64le"
/-- cyclonedx.go:888 -/
def ImplementationPlatformOther : ImplementationPlatform := "other"
/-- cyclonedx.go:889 -/
def ImplementationPlatformUnknown : ImplementationPlatform := "unknown"
/-- cyclonedx.go:904 -/
def IssueTypeDefect : IssueType := "defect"
/-- cyclonedx.go:905 -/
def IssueTypeEnhancement : IssueType := "enhancement"
/-- cyclonedx.go:906 -/
def IssueTypeSecurity : IssueType := "security"
/-- cyclonedx.go:950 -/
def LicenseAcknowledgementDeclared : LicenseAcknowledgement := "declared"
/-- cyclonedx.go:951 -/
def LicenseAcknowledgementConcluded : LicenseAcknowledgement := "concluded"
/-- cyclonedx.go:977 -/
def LicenseTypeAcademic : LicenseType := "academic"
/-- cyclonedx.go:978 -/
def LicenseTypeAppliance : LicenseType := "appliance"
/-- cyclonedx.go:979 -/
def LicenseTypeClientAccess : LicenseType := "client-access"
/-- cyclonedx.go:980 -/
def LicenseTypeConcurrentUser : LicenseType := "concurrent-user"
/-- cyclonedx.go:981 -/
def LicenseTypeCorePoints : LicenseType := "core-points"
/-- cyclonedx.go:982 -/
def LicenseTypeCustomMetric : LicenseType := "custom-metric"
/-- cyclonedx.go:983 -/
def LicenseTypeDevice : LicenseType := "device"
/-- cyclonedx.go:984 -/
def LicenseTypeEvaluation : LicenseType := "evaluation"
/-- cyclonedx.go:985 -/
def LicenseTypeNamedUser : LicenseType := "named-user"
/-- cyclonedx.go:986 -/
def LicenseTypeNodeLocked : LicenseType := "node-locked"
/-- cyclonedx.go:987 -/
def LicenseTypeOEM : LicenseType := "oem"
/-- cyclonedx.go:988 -/
def LicenseTypeOther : LicenseType := "other"
/-- cyclonedx.go:989 -/
def LicenseTypePerpetual : LicenseType := "perpetual"
/-- cyclonedx.go:990 -/
def LicenseTypeProcessorPoints : LicenseType := "processor-points"
/-- cyclonedx.go:991 -/
def LicenseTypeSubscription : LicenseType := "subscription"
/-- cyclonedx.go:992 -/
def LicenseTypeUser : LicenseType := "user"
/-- cyclonedx.go:1015 -/
def LifecyclePhaseBuild : LifecyclePhase := "build"
/-- cyclonedx.go:1016 -/
def LifecyclePhaseDecommission : LifecyclePhase := "decommission"
/-- cyclonedx.go:1017 -/
def LifecyclePhaseDesign : LifecyclePhase := "design"
/-- cyclonedx.go:1018 -/
def LifecyclePhaseDiscovery : LifecyclePhase := "discovery"
/-- cyclonedx.go:1019 -/
def LifecyclePhaseOperations : LifecyclePhase := "operations"
/-- cyclonedx.go:1020 -/
def LifecyclePhasePostBuild : LifecyclePhase := "post-build"
/-- cyclonedx.go:1021 -/
def LifecyclePhasePreBuild : LifecyclePhase := "pre-build"
/-- cyclonedx.go:1106 -/
def MLModelCO2UnitTCO2Eq : MLModelCO2Unit := "tCO2eq"
/-- cyclonedx.go:1120 -/
def MLModelEnergyConsumptionActivityDesign : MLModelEnergyConsumptionActivity := "design"
/-- cyclonedx.go:1121 -/
def MLModelEnergyConsumptionActivityDataCollection : MLModelEnergyConsumptionActivity := "data-collection"
/-- cyclonedx.go:1122 -/
def MLModelEnergyConsumptionActivityDataPreparation : MLModelEnergyConsumptionActivity := "data-preparation"
/-- cyclonedx.go:1123 -/
def MLModelEnergyConsumptionActivityTraining : MLModelEnergyConsumptionActivity := "training"
/-- cyclonedx.go:1124 -/
def MLModelEnergyConsumptionActivityFineTuning : MLModelEnergyConsumptionActivity := "fine-tuning"
/-- cyclonedx.go:1125 -/
def MLModelEnergyConsumptionActivityValidation : MLModelEnergyConsumptionActivity := "validation"
/-- cyclonedx.go:1126 -/
def MLModelEnergyConsumptionActivityDeployment : MLModelEnergyConsumptionActivity := "deployment"
/-- cyclonedx.go:1127 -/
def MLModelEnergyConsumptionActivityInference : MLModelEnergyConsumptionActivity := "inference"
/-- cyclonedx.go:1128 -/
def MLModelEnergyConsumptionActivityOther : MLModelEnergyConsumptionActivity := "other"
/-- cyclonedx.go:1148 -/
def MLModelEnergySourceCoal : MLModelEnergySource := "coal"
/-- cyclonedx.go:1149 -/
def MLModelEnergySourceOil : MLModelEnergySource := "oil"
/-- cyclonedx.go:1150 -/
def MLModelEnergySourceNaturalGas : MLModelEnergySource := "natural-gas"
/-- cyclonedx.go:1151 -/
def MLModelEnergySourceNuclear : MLModelEnergySource := "nuclear"
/-- cyclonedx.go:1152 -/
def MLModelEnergySourceWind : MLModelEnergySource := "wind"
/-- cyclonedx.go:1153 -/
def MLModelEnergySourceSolar : MLModelEnergySource := "solar"
/-- cyclonedx.go:1154 -/
def MLModelEnergySourceGeothermal : MLModelEnergySource := "geothermal"
/-- cyclonedx.go:1155 -/
def MLModelEnergySourceHydropower : MLModelEnergySource := "hydropower"
/-- cyclonedx.go:1156 -/
def MLModelEnergySourceBiofuel : MLModelEnergySource := "biofuel"
/-- cyclonedx.go:1157 -/
def MLModelEnergySourceUnknown : MLModelEnergySource := "unknown"
/-- cyclonedx.go:1158 -/
def MLModelEnergySourceOther : MLModelEnergySource := "other"
/-- cyclonedx.go:1163 -/
def MLModelEnergyUnitKWH : MLModelEnergyUnit := "kWh"
/-- cyclonedx.go:1182 -/
def MLModelParametersApproachTypeSupervised : MLModelParametersApproachType := "supervised"
/-- cyclonedx.go:1183 -/
def MLModelParametersApproachTypeUnsupervised : MLModelParametersApproachType := "unsupervised"
/-- cyclonedx.go:1184 -/
def MLModelParametersApproachTypeReinforcementLearning : MLModelParametersApproachType := "reinforcement-learning"
/-- cyclonedx.go:1185 -/
def MLModelParametersApproachTypeSemiSupervised : MLModelParametersApproachType := "semi-supervised"
/-- cyclonedx.go:1186 -/
def MLModelParametersApproachTypeSelfSupervised : MLModelParametersApproachType := "self-supervised"
/-- cyclonedx.go:1246 -/
def PatchTypeBackport : PatchType := "backport"
/-- cyclonedx.go:1247 -/
def PatchTypeCherryPick : PatchType := "cherry-pick"
/-- cyclonedx.go:1248 -/
def PatchTypeMonkey : PatchType := "monkey"
/-- cyclonedx.go:1249 -/
def PatchTypeUnofficial : PatchType := "unofficial"
/-- cyclonedx.go:1302 -/
def RelatedCryptoMaterialTypePrivateKey : RelatedCryptoMaterialType := "private-key"
/-- cyclonedx.go:1303 -/
def RelatedCryptoMaterialTypePublicKey : RelatedCryptoMaterialType := "public-key"
/-- cyclonedx.go:1304 -/
def RelatedCryptoMaterialTypeSecretKey : RelatedCryptoMaterialType := "secret-key"
/-- cyclonedx.go:1305 -/
def RelatedCryptoMaterialTypeKey : RelatedCryptoMaterialType := "key"
/-- cyclonedx.go:1306 -/
def RelatedCryptoMaterialTypeCiphertext : RelatedCryptoMaterialType := "ciphertext"
/-- cyclonedx.go:1307 -/
def RelatedCryptoMaterialTypeSignature : RelatedCryptoMaterialType := "signature"
/-- cyclonedx.go:1308 -/
def RelatedCryptoMaterialTypeDigest : RelatedCryptoMaterialType := "digest"
/-- cyclonedx.go:1309 -/
def RelatedCryptoMaterialTypeInitializationVector : RelatedCryptoMaterialType := "initialization-vector"
/-- cyclonedx.go:1310 -/
def RelatedCryptoMaterialTypeNonce : RelatedCryptoMaterialType := "nonce"
/-- cyclonedx.go:1311 -/
def RelatedCryptoMaterialTypeSeed : RelatedCryptoMaterialType := "seed"
/-- cyclonedx.go:1312 -/
def RelatedCryptoMaterialTypeSalt : RelatedCryptoMaterialType := "salt"
/-- cyclonedx.go:1313 -/
def RelatedCryptoMaterialTypeSharedSecret : RelatedCryptoMaterialType := "shared-secret"
/-- cyclonedx.go:1314 -/
def RelatedCryptoMaterialTypeTag : RelatedCryptoMaterialType := "tag"
/-- cyclonedx.go:1315 -/
def RelatedCryptoMaterialTypeAdditionalData : RelatedCryptoMaterialType := "additional-data"
/-- cyclonedx.go:1316 -/
def RelatedCryptoMaterialTypePassword : RelatedCryptoMaterialType := "password"
/-- cyclonedx.go:1317 -/
def RelatedCryptoMaterialTypeCredential : RelatedCryptoMaterialType := "credential"
/-- cyclonedx.go:1318 -/
def RelatedCryptoMaterialTypeToken : RelatedCryptoMaterialType := "token"
/-- cyclonedx.go:1319 -/
def RelatedCryptoMaterialTypeOther : RelatedCryptoMaterialType := "other"
/-- cyclonedx.go:1320 -/
def RelatedCryptoMaterialTypeUnknown : RelatedCryptoMaterialType := "unknown"
/-- cyclonedx.go:1345 -/
def ScopeExcluded : Scope := "excluded"
/-- cyclonedx.go:1346 -/
def ScopeOptional : Scope := "optional"
/-- cyclonedx.go:1347 -/
def ScopeRequired : Scope := "required"
/-- cyclonedx.go:1353 -/
def ScoringMethodOther : ScoringMethod := "other"
/-- cyclonedx.go:1354 -/
def ScoringMethodCVSSv2 : ScoringMethod := "CVSSv2"
/-- cyclonedx.go:1355 -/
def ScoringMethodCVSSv3 : ScoringMethod := "CVSSv3"
/-- cyclonedx.go:1356 -/
def ScoringMethodCVSSv31 : ScoringMethod := "CVSSv31"
/-- cyclonedx.go:1357 -/
def ScoringMethodCVSSv4 : ScoringMethod := "CVSSv4"
/-- cyclonedx.go:1358 -/
def ScoringMethodOWASP : ScoringMethod := "OWASP"
/-- cyclonedx.go:1359 -/
def ScoringMethodSSVC : ScoringMethod := "SSVC"
/-- cyclonedx.go:1387 -/
def SeverityUnknown : Severity := "unknown"
/-- cyclonedx.go:1388 -/
def SeverityNone : Severity := "none"
/-- cyclonedx.go:1389 -/
def SeverityInfo : Severity := "info"
/-- cyclonedx.go:1390 -/
def SeverityLow : Severity := "low"
/-- cyclonedx.go:1391 -/
def SeverityMedium : Severity := "medium"
/-- cyclonedx.go:1392 -/
def SeverityHigh : Severity := "high"
/-- cyclonedx.go:1393 -/
def SeverityCritical : Severity := "critical"
/-- cyclonedx.go:1506 -/
def TaskOutputTypeArtifact : TaskOutputType := "artifact"
/-- cyclonedx.go:1507 -/
def TaskOutputTypeAttestation : TaskOutputType := "attestation"
/-- cyclonedx.go:1508 -/
def TaskOutputTypeEvidence : TaskOutputType := "evidence"
/-- cyclonedx.go:1509 -/
def TaskOutputTypeLog : TaskOutputType := "log"
/-- cyclonedx.go:1510 -/
def TaskOutputTypeMetrics : TaskOutputType := "metrics"
/-- cyclonedx.go:1511 -/
def TaskOutputTypeOther : TaskOutputType := "other"
/-- cyclonedx.go:1545 -/
def TaskTriggerTypeAPI : TaskTriggerType := "api"
/-- cyclonedx.go:1546 -/
def TaskTriggerTypeManual : TaskTriggerType := "manual"
/-- cyclonedx.go:1547 -/
def TaskTriggerTypeScheduled : TaskTriggerType := "scheduled"
/-- cyclonedx.go:1548 -/
def TaskTriggerTypeWebhook : TaskTriggerType := "webhook"
/-- cyclonedx.go:1554 -/
def TaskTypeBuild : TaskType := "build"
/-- cyclonedx.go:1555 -/
def TaskTypeClean : TaskType := "clean"
/-- cyclonedx.go:1556 -/
def TaskTypeClone : TaskType := "clone"
/-- cyclonedx.go:1557 -/
def TaskTypeCopy : TaskType := "copy"
/-- cyclonedx.go:1558 -/
def TaskTypeDeliver : TaskType := "deliver"
/-- cyclonedx.go:1559 -/
def TaskTypeDeploy : TaskType := "deploy"
/-- cyclonedx.go:1560 -/
def TaskTypeLint : TaskType := "lint"
/-- cyclonedx.go:1561 -/
def TaskTypeMerge : TaskType := "merge"
/-- cyclonedx.go:1562 -/
def TaskTypeOther : TaskType := "other"
/-- cyclonedx.go:1563 -/
def TaskTypeRelease : TaskType := "release"
/-- cyclonedx.go:1564 -/
def TaskTypeScan : TaskType := "scan"
/-- cyclonedx.go:1565 -/
def TaskTypeTest : TaskType := "test"
/-- cyclonedx.go:1586 -/
def TaskWorkspaceAccessModeReadOnly : TaskWorkspaceAccessMode := "read-only"
/-- cyclonedx.go:1587 -/
def TaskWorkspaceAccessModeReadWrite : TaskWorkspaceAccessMode := "read-write"
/-- cyclonedx.go:1588 -/
def TaskWorkspaceAccessModeReadWriteOnce : TaskWorkspaceAccessMode := "read-write-once"
/-- cyclonedx.go:1589 -/
def TaskWorkspaceAccessModeWriteOnce : TaskWorkspaceAccessMode := "write-once"
/-- cyclonedx.go:1590 -/
def TaskWorkspaceAccessModeWriteOnly : TaskWorkspaceAccessMode := "write-only"
/-- cyclonedx.go:1630 -/
def VolumeModeBlock : VolumeMode := "block"
/-- cyclonedx.go:1631 -/
def VolumeModeFilesystem : VolumeMode := "file-system"
/-- cyclonedx.go:1684 -/
def VulnerabilityStatusUnknown : VulnerabilityStatus := "unknown"
/-- cyclonedx.go:1685 -/
def VulnerabilityStatusAffected : VulnerabilityStatus := "affected"
/-- cyclonedx.go:1686 -/
def VulnerabilityStatusNotAffected : VulnerabilityStatus := "unaffected"
/-- cyclonedx.go:1727 -/
def PatentLegalStatusPending : PatentLegalStatus := "pending"
/-- cyclonedx.go:1728 -/
def PatentLegalStatusGranted : PatentLegalStatus := "granted"
/-- cyclonedx.go:1729 -/
def PatentLegalStatusRevoked : PatentLegalStatus := "revoked"
/-- cyclonedx.go:1730 -/
def PatentLegalStatusExpired : PatentLegalStatus := "expired"
/-- cyclonedx.go:1731 -/
def PatentLegalStatusLapsed : PatentLegalStatus := "lapsed"
/-- cyclonedx.go:1732 -/
def PatentLegalStatusWithdrawn : PatentLegalStatus := "withdrawn"
/-- cyclonedx.go:1733 -/
def PatentLegalStatusAbandoned : PatentLegalStatus := "abandoned"
/-- cyclonedx.go:1734 -/
def PatentLegalStatusSuspended : PatentLegalStatus := "suspended"
/-- cyclonedx.go:1735 -/
def PatentLegalStatusReinstated : PatentLegalStatus := "reinstated"
/-- cyclonedx.go:1736 -/
def PatentLegalStatusOpposed : PatentLegalStatus := "opposed"
/-- cyclonedx.go:1737 -/
def PatentLegalStatusTerminated : PatentLegalStatus := "terminated"
/-- cyclonedx.go:1738 -/
def PatentLegalStatusInvalidated : PatentLegalStatus := "invalidated"
/-- cyclonedx.go:1739 -/
def PatentLegalStatusInForce : PatentLegalStatus := "in-force"
/-- cyclonedx.go:1791 -/
def PatentAssertionTypeOwnership : PatentAssertionType := "ownership"
/-- cyclonedx.go:1792 -/
def PatentAssertionTypeLicense : PatentAssertionType := "license"
/-- cyclonedx.go:1793 -/
def PatentAssertionTypeThirdPartyClaim : PatentAssertionType := "third-party-claim"
/-- cyclonedx.go:1794 -/
def PatentAssertionTypeStandardsInclusion : PatentAssertionType := "standards-inclusion"
/-- cyclonedx.go:1795 -/
def PatentAssertionTypePriorArt : PatentAssertionType := "prior-art"
/-- cyclonedx.go:1796 -/
def PatentAssertionTypeExclusiveRights : PatentAssertionType := "exclusive-rights"
/-- cyclonedx.go:1797 -/
def PatentAssertionTypeNonAssertion : PatentAssertionType := "non-assertion"
/-- cyclonedx.go:1798 -/
def PatentAssertionTypeResearchOrEvaluation : PatentAssertionType := "research-or-evaluation"
/-- cyclonedx.go:1817 -/
def TLPClassificationClear : TLPClassification := "CLEAR"
/-- cyclonedx.go:1818 -/
def TLPClassificationGreen : TLPClassification := "GREEN"
/-- cyclonedx.go:1819 -/
def TLPClassificationAmber : TLPClassification := "AMBER"
/-- cyclonedx.go:1820 -/
def TLPClassificationAmberAndStrict : TLPClassification := "AMBER_AND_STRICT"
/-- cyclonedx.go:1821 -/
def TLPClassificationRed : TLPClassification := "RED"
/-- cyclonedx.go:1896 -/
def CertificateStatePreActivation : CertificateStateType := "pre-activation"
/-- cyclonedx.go:1897 -/
def CertificateStateActive : CertificateStateType := "active"
/-- cyclonedx.go:1898 -/
def CertificateStateSuspended : CertificateStateType := "suspended"
/-- cyclonedx.go:1899 -/
def CertificateStateDeactivated : CertificateStateType := "deactivated"
/-- cyclonedx.go:1900 -/
def CertificateStateRevoked : CertificateStateType := "revoked"
/-- cyclonedx.go:1901 -/
def CertificateStateDestroyed : CertificateStateType := "destroyed"
/-- cyclonedx.go:1928 -/
def CertExtBasicConstraints : CertificateExtensionName := "basicConstraints"
/-- cyclonedx.go:1929 -/
def CertExtKeyUsage : CertificateExtensionName := "keyUsage"
/-- cyclonedx.go:1930 -/
def CertExtExtendedKeyUsage : CertificateExtensionName := "extendedKeyUsage"
/-- cyclonedx.go:1931 -/
def CertExtSubjectAlternativeName : CertificateExtensionName := "subjectAlternativeName"
/-- cyclonedx.go:1932 -/
def CertExtAuthorityKeyIdentifier : CertificateExtensionName := "authorityKeyIdentifier"
/-- cyclonedx.go:1933 -/
def CertExtSubjectKeyIdentifier : CertificateExtensionName := "subjectKeyIdentifier"
/-- cyclonedx.go:1934 -/
def CertExtAuthorityInformationAccess : CertificateExtensionName := "authorityInformationAccess"
/-- cyclonedx.go:1935 -/
def CertExtCertificatePolicies : CertificateExtensionName := "certificatePolicies"
/-- cyclonedx.go:1936 -/
def CertExtCRLDistributionPoints : CertificateExtensionName := "crlDistributionPoints"
/-- cyclonedx.go:1937 -/
def CertExtSignedCertificateTimestamp : CertificateExtensionName := "signedCertificateTimestamp"

/-- All constants of type `ComponentType`, cyclonedx.go:216-228 -/
def ComponentType.all : List ComponentType :=
  [ComponentTypeApplication,
   ComponentTypeContainer,
   ComponentTypeCryptographicAsset,
   ComponentTypeData,
   ComponentTypeDevice,
   ComponentTypeDeviceDriver,
   ComponentTypeFile,
   ComponentTypeFirmware,
   ComponentTypeFramework,
   ComponentTypeLibrary,
   ComponentTypeMachineLearningModel,
   ComponentTypeOS,
   ComponentTypePlatform]

/-- All constants of type `ComponentDataType`, cyclonedx.go:314-318 -/
def ComponentDataType.all : List ComponentDataType :=
  [ComponentDataTypeConfiguration,
   ComponentDataTypeDataset,
   ComponentDataTypeDefinition,
   ComponentDataTypeOther,
   ComponentDataTypeSourceCode]

/-- All constants of type `CompositionAggregate`, cyclonedx.go:333-342 -/
def CompositionAggregate.all : List CompositionAggregate :=
  [CompositionAggregateComplete,
   CompositionAggregateIncomplete,
   CompositionAggregateIncompleteFirstPartyOnly,
   CompositionAggregateIncompleteFirstPartyOpenSourceOnly,
   CompositionAggregateIncompleteFirstPartyProprietaryOnly,
   CompositionAggregateIncompleteThirdPartyOnly,
   CompositionAggregateIncompleteThirdPartyOpenSourceOnly,
   CompositionAggregateIncompleteThirdPartyProprietaryOnly,
   CompositionAggregateNotSpecified,
   CompositionAggregateUnknown]

/-- All constants of type `CryptoAlgorithmMode`, cyclonedx.go:357-365 -/
def CryptoAlgorithmMode.all : List CryptoAlgorithmMode :=
  [CryptoAlgorithmModeCBC,
   CryptoAlgorithmModeECB,
   CryptoAlgorithmModeCCM,
   CryptoAlgorithmModeGCM,
   CryptoAlgorithmModeCFB,
   CryptoAlgorithmModeOFB,
   CryptoAlgorithmModeCTR,
   CryptoAlgorithmModeOther,
   CryptoAlgorithmModeUnknown]

/-- All constants of type `CryptoAssetType`, cyclonedx.go:387-390 -/
def CryptoAssetType.all : List CryptoAssetType :=
  [CryptoAssetTypeAlgorithm,
   CryptoAssetTypeCertificate,
   CryptoAssetTypeProtocol,
   CryptoAssetTypeRelatedCryptoMaterial]

/-- All constants of type `CryptoCertificationLevel`, cyclonedx.go:396-424 -/
def CryptoCertificationLevel.all : List CryptoCertificationLevel :=
  [CryptoCertificationLevelNone,
   CryptoCertificationLevelFIPS140_1_L1,
   CryptoCertificationLevelFIPS140_1_L2,
   CryptoCertificationLevelFIPS140_1_L3,
   CryptoCertificationLevelFIPS140_1_L4,
   CryptoCertificationLevelFIPS140_2_L1,
   CryptoCertificationLevelFIPS140_2_L2,
   CryptoCertificationLevelFIPS140_2_L3,
   CryptoCertificationLevelFIPS140_2_L4,
   CryptoCertificationLevelFIPS140_3_L1,
   CryptoCertificationLevelFIPS140_3_L2,
   CryptoCertificationLevelFIPS140_3_L3,
   CryptoCertificationLevelFIPS140_3_L4,
   CryptoCertificationLevelCCEAL1,
   CryptoCertificationLevelCCEAL1Plus,
   CryptoCertificationLevelCCEAL2,
   CryptoCertificationLevelCCEAL2Plus,
   CryptoCertificationLevelCCEAL3,
   CryptoCertificationLevelCCEAL3Plus,
   CryptoCertificationLevelCCEAL4,
   CryptoCertificationLevelCCEAL4Plus,
   CryptoCertificationLevelCCEAL5,
   CryptoCertificationLevelCCEAL5Plus,
   CryptoCertificationLevelCCEAL6,
   CryptoCertificationLevelCCEAL6Plus,
   CryptoCertificationLevelCCEAL7,
   CryptoCertificationLevelCCEAL7Plus,
   CryptoCertificationLevelOther,
   CryptoCertificationLevelUnknown]

/-- All constants of type `CryptoExecutionEnvironment`, cyclonedx.go:430-435 -/
def CryptoExecutionEnvironment.all : List CryptoExecutionEnvironment :=
  [CryptoExecutionEnvironmentSoftwarePlainRAM,
   CryptoExecutionEnvironmentSoftwareEncryptedRAM,
   CryptoExecutionEnvironmentSoftwareTEE,
   CryptoExecutionEnvironmentHardware,
   CryptoExecutionEnvironmentOther,
   CryptoExecutionEnvironmentUnknown]

/-- All constants of type `CryptoFunction`, cyclonedx.go:441-453 -/
def CryptoFunction.all : List CryptoFunction :=
  [CryptoFunctionGenerate,
   CryptoFunctionKeygen,
   CryptoFunctionEncrypt,
   CryptoFunctionDecrypt,
   CryptoFunctionDigest,
   CryptoFunctionTag,
   CryptoFunctionKeyderive,
   CryptoFunctionSign,
   CryptoFunctionVerify,
   CryptoFunctionEncapsulate,
   CryptoFunctionDecapsulate,
   CryptoFunctionOther,
   CryptoFunctionUnknown]

/-- All constants of type `CryptoKeyState`, cyclonedx.go:459-464 -/
def CryptoKeyState.all : List CryptoKeyState :=
  [CryptoKeyStatePreActivation,
   CryptoKeyStateActive,
   CryptoKeyStateSuspended,
   CryptoKeyStateDeactivated,
   CryptoKeyStateCompromised,
   CryptoKeyStateDestroyed]

/-- All constants of type `CryptoPadding`, cyclonedx.go:470-476 -/
def CryptoPadding.all : List CryptoPadding :=
  [CryptoPaddingPKCS5,
   CryptoPaddingPKCS7,
   CryptoPaddingPKCS1v15,
   CryptoPaddingOAEP,
   CryptoPaddingRaw,
   CryptoPaddingOther,
   CryptoPaddingUnknown]

/-- All constants of type `CryptoPrimitive`, cyclonedx.go:482-497 -/
def CryptoPrimitive.all : List CryptoPrimitive :=
  [CryptoPrimitiveDRBG,
   CryptoPrimitiveMAC,
   CryptoPrimitiveBlockCipher,
   CryptoPrimitiveStreamCipher,
   CryptoPrimitiveSignature,
   CryptoPrimitiveHash,
   CryptoPrimitivePKE,
   CryptoPrimitiveXOF,
   CryptoPrimitiveKDF,
   CryptoPrimitiveKeyAgree,
   CryptoPrimitiveKEM,
   CryptoPrimitiveAE,
   CryptoPrimitiveCombiner,
   CryptoPrimitiveKeyWrap,
   CryptoPrimitiveOther,
   CryptoPrimitiveUnknown]

/-- All constants of type `CryptoProtocolType`, cyclonedx.go:521-534 -/
def CryptoProtocolType.all : List CryptoProtocolType :=
  [CryptoProtocolTypeTLS,
   CryptoProtocolTypeSSH,
   CryptoProtocolTypeIPSec,
   CryptoProtocolTypeIKE,
   CryptoProtocolTypeSSTP,
   CryptoProtocolTypeWPA,
   CryptoProtocolTypeDTLS,
   CryptoProtocolTypeQUIC,
   CryptoProtocolTypeEAPAKA,
   CryptoProtocolTypeEAPAKAPrime,
   CryptoProtocolTypePRINS,
   CryptoProtocolType5GAKA,
   CryptoProtocolTypeOther,
   CryptoProtocolTypeUnknown]

/-- All constants of type `DataFlow`, cyclonedx.go:564-567 -/
def DataFlow.all : List DataFlow :=
  [DataFlowBidirectional,
   DataFlowInbound,
   DataFlowOutbound,
   DataFlowUnknown]

/-- All constants of type `EvidenceIdentityFieldType`, cyclonedx.go:699-707 -/
def EvidenceIdentityFieldType.all : List EvidenceIdentityFieldType :=
  [EvidenceIdentityFieldTypeCPE,
   EvidenceIdentityFieldTypeGroup,
   EvidenceIdentityFieldTypeHash,
   EvidenceIdentityFieldTypeName,
   EvidenceIdentityFieldTypePURL,
   EvidenceIdentityFieldTypeOmniborID,
   EvidenceIdentityFieldTypeSWHID,
   EvidenceIdentityFieldTypeSWID,
   EvidenceIdentityFieldTypeVersion]

/-- All constants of type `EvidenceIdentityTechnique`, cyclonedx.go:719-728 -/
def EvidenceIdentityTechnique.all : List EvidenceIdentityTechnique :=
  [EvidenceIdentityTechniqueASTFingerprint,
   EvidenceIdentityTechniqueAttestation,
   EvidenceIdentityTechniqueBinaryAnalysis,
   EvidenceIdentityTechniqueDynamicAnalysis,
   EvidenceIdentityTechniqueFilename,
   EvidenceIdentityTechniqueHashComparison,
   EvidenceIdentityTechniqueInstrumentation,
   EvidenceIdentityTechniqueManifestAnalysis,
   EvidenceIdentityTechniqueOther,
   EvidenceIdentityTechniqueSourceCodeAnalysis]

/-- All constants of type `ExternalReferenceType`, cyclonedx.go:751-797 -/
def ExternalReferenceType.all : List ExternalReferenceType :=
  [ERTypeAdversaryModel,
   ERTypeAdvisories,
   ERTypeAttestation,
   ERTypeBOM,
   ERTypeBuildMeta,
   ERTypeBuildSystem,
   ERTypeCertificationReport,
   ERTypeChat,
   ERTypeConfiguration,
   ERTypeCodifiedInfrastructure,
   ERTypeComponentAnalysisReport,
   ERTypeDistribution,
   ERTypeDistributionIntake,
   ERTypeDocumentation,
   ERTypeDynamicAnalysisReport,
   ERTypeDigitalSignature,
   ERTypeElectronicSignature,
   ERTypeEvidence,
   ERTypeExploitabilityStatement,
   ERTypeFormulation,
   ERTypeIssueTracker,
   ERTypeLicense,
   ERTypeLog,
   ERTypeMailingList,
   ERTypeMaturityReport,
   ERTypeModelCard,
   ERTypeOther,
   ERTypePentestReport,
   ERTypePOAM,
   ERTypeQualityMetrics,
   ERTypeReleaseNotes,
   ERTypeRiskAssessment,
   ERTypeRFC9116,
   ERTypeRuntimeAnalysisReport,
   ERTypeSecurityContact,
   ERTypeSocial,
   ERTypeSourceDistribution,
   ERTypeStaticAnalysisReport,
   ERTypeSupport,
   ERTypeThreatModel,
   ERTypeVCS,
   ERTypeVulnerabilityAssertion,
   ERTypeWebsite,
   ERTypePatent,
   ERTypePatentFamily,
   ERTypePatentAssertion,
   ERTypeCitation]

/-- All constants of type `HashAlgorithm`, cyclonedx.go:816-829 -/
def HashAlgorithm.all : List HashAlgorithm :=
  [HashAlgoMD5,
   HashAlgoSHA1,
   HashAlgoSHA256,
   HashAlgoSHA384,
   HashAlgoSHA512,
   HashAlgoSHA3_256,
   HashAlgoSHA3_384,
   HashAlgoSHA3_512,
   HashAlgoBlake2b_256,
   HashAlgoBlake2b_384,
   HashAlgoBlake2b_512,
   HashAlgoBlake3,
   HashAlgoStreebog256,
   HashAlgoStreebog512]

/-- All constants of type `ImpactAnalysisJustification`, cyclonedx.go:841-849 -/
def ImpactAnalysisJustification.all : List ImpactAnalysisJustification :=
  [IAJCodeNotPresent,
   IAJCodeNotReachable,
   IAJRequiresConfiguration,
   IAJRequiresDependency,
   IAJRequiresEnvironment,
   IAJProtectedByCompiler,
   IAJProtectedAtRuntime,
   IAJProtectedAtPerimeter,
   IAJProtectedByMitigatingControl]

/-- All constants of type `ImpactAnalysisResponse`, cyclonedx.go:855-859 -/
def ImpactAnalysisResponse.all : List ImpactAnalysisResponse :=
  [IARCanNotFix,
   IARWillNotFix,
   IARUpdate,
   IARRollback,
   IARWorkaroundAvailable]

/-- All constants of type `ImpactAnalysisState`, cyclonedx.go:865-870 -/
def ImpactAnalysisState.all : List ImpactAnalysisState :=
  [IASResolved,
   IASResolvedWithPedigree,
   IASExploitable,
   IASInTriage,
   IASFalsePositive,
   IASNotAffected]

/-- All constants of type `ImplementationPlatform`, cyclonedx.go:876-889 -/
def ImplementationPlatform.all : List ImplementationPlatform :=
  [ImplementationPlatformGeneric,
   ImplementationPlatformX86_32,
   ImplementationPlatformX86_64,
   ImplementationPlatformARMv7A,
   ImplementationPlatformARMv7M,
   ImplementationPlatformARMv8A,
   ImplementationPlatformARMv8M,
   ImplementationPlatformARMv9A,
   ImplementationPlatformARMv9M,
   ImplementationPlatformS390x,
   ImplementationPlatformPPC64,
   ImplementationPlatformPPC64LE,
   ImplementationPlatformOther,
   ImplementationPlatformUnknown]

/-- All constants of type `IssueType`, cyclonedx.go:904-906 -/
def IssueType.all : List IssueType :=
  [IssueTypeDefect,
   IssueTypeEnhancement,
   IssueTypeSecurity]

/-- All constants of type `LicenseAcknowledgement`, cyclonedx.go:950-951 -/
def LicenseAcknowledgement.all : List LicenseAcknowledgement :=
  [LicenseAcknowledgementDeclared,
   LicenseAcknowledgementConcluded]

/-- All constants of type `LicenseType`, cyclonedx.go:977-992 -/
def LicenseType.all : List LicenseType :=
  [LicenseTypeAcademic,
   LicenseTypeAppliance,
   LicenseTypeClientAccess,
   LicenseTypeConcurrentUser,
   LicenseTypeCorePoints,
   LicenseTypeCustomMetric,
   LicenseTypeDevice,
   LicenseTypeEvaluation,
   LicenseTypeNamedUser,
   LicenseTypeNodeLocked,
   LicenseTypeOEM,
   LicenseTypeOther,
   LicenseTypePerpetual,
   LicenseTypeProcessorPoints,
   LicenseTypeSubscription,
   LicenseTypeUser]

/-- All constants of type `LifecyclePhase`, cyclonedx.go:1015-1021 -/
def LifecyclePhase.all : List LifecyclePhase :=
  [LifecyclePhaseBuild,
   LifecyclePhaseDecommission,
   LifecyclePhaseDesign,
   LifecyclePhaseDiscovery,
   LifecyclePhaseOperations,
   LifecyclePhasePostBuild,
   LifecyclePhasePreBuild]

/-- All constants of type `MLModelCO2Unit`, cyclonedx.go:1106-1106 -/
def MLModelCO2Unit.all : List MLModelCO2Unit :=
  [MLModelCO2UnitTCO2Eq]

/-- All constants of type `MLModelEnergyConsumptionActivity`, cyclonedx.go:1120-1128 -/
def MLModelEnergyConsumptionActivity.all : List MLModelEnergyConsumptionActivity :=
  [MLModelEnergyConsumptionActivityDesign,
   MLModelEnergyConsumptionActivityDataCollection,
   MLModelEnergyConsumptionActivityDataPreparation,
   MLModelEnergyConsumptionActivityTraining,
   MLModelEnergyConsumptionActivityFineTuning,
   MLModelEnergyConsumptionActivityValidation,
   MLModelEnergyConsumptionActivityDeployment,
   MLModelEnergyConsumptionActivityInference,
   MLModelEnergyConsumptionActivityOther]

/-- All constants of type `MLModelEnergySource`, cyclonedx.go:1148-1158 -/
def MLModelEnergySource.all : List MLModelEnergySource :=
  [MLModelEnergySourceCoal,
   MLModelEnergySourceOil,
   MLModelEnergySourceNaturalGas,
   MLModelEnergySourceNuclear,
   MLModelEnergySourceWind,
   MLModelEnergySourceSolar,
   MLModelEnergySourceGeothermal,
   MLModelEnergySourceHydropower,
   MLModelEnergySourceBiofuel,
   MLModelEnergySourceUnknown,
   MLModelEnergySourceOther]

/-- All constants of type `MLModelEnergyUnit`, cyclonedx.go:1163-1163 -/
def MLModelEnergyUnit.all : List MLModelEnergyUnit :=
  [MLModelEnergyUnitKWH]

/-- All constants of type `MLModelParametersApproachType`, cyclonedx.go:1182-1186 -/
def MLModelParametersApproachType.all : List MLModelParametersApproachType :=
  [MLModelParametersApproachTypeSupervised,
   MLModelParametersApproachTypeUnsupervised,
   MLModelParametersApproachTypeReinforcementLearning,
   MLModelParametersApproachTypeSemiSupervised,
   MLModelParametersApproachTypeSelfSupervised]

/-- All constants of type `PatchType`, cyclonedx.go:1246-1249 -/
def PatchType.all : List PatchType :=
  [PatchTypeBackport,
   PatchTypeCherryPick,
   PatchTypeMonkey,
   PatchTypeUnofficial]

/-- All constants of type `RelatedCryptoMaterialType`, cyclonedx.go:1302-1320 -/
def RelatedCryptoMaterialType.all : List RelatedCryptoMaterialType :=
  [RelatedCryptoMaterialTypePrivateKey,
   RelatedCryptoMaterialTypePublicKey,
   RelatedCryptoMaterialTypeSecretKey,
   RelatedCryptoMaterialTypeKey,
   RelatedCryptoMaterialTypeCiphertext,
   RelatedCryptoMaterialTypeSignature,
   RelatedCryptoMaterialTypeDigest,
   RelatedCryptoMaterialTypeInitializationVector,
   RelatedCryptoMaterialTypeNonce,
   RelatedCryptoMaterialTypeSeed,
   RelatedCryptoMaterialTypeSalt,
   RelatedCryptoMaterialTypeSharedSecret,
   RelatedCryptoMaterialTypeTag,
   RelatedCryptoMaterialTypeAdditionalData,
   RelatedCryptoMaterialTypePassword,
   RelatedCryptoMaterialTypeCredential,
   RelatedCryptoMaterialTypeToken,
   RelatedCryptoMaterialTypeOther,
   RelatedCryptoMaterialTypeUnknown]

/-- All constants of type `Scope`, cyclonedx.go:1345-1347 -/
def Scope.all : List Scope :=
  [ScopeExcluded,
   ScopeOptional,
   ScopeRequired]

/-- All constants of type `ScoringMethod`, cyclonedx.go:1353-1359 -/
def ScoringMethod.all : List ScoringMethod :=
  [ScoringMethodOther,
   ScoringMethodCVSSv2,
   ScoringMethodCVSSv3,
   ScoringMethodCVSSv31,
   ScoringMethodCVSSv4,
   ScoringMethodOWASP,
   ScoringMethodSSVC]

/-- All constants of type `Severity`, cyclonedx.go:1387-1393 -/
def Severity.all : List Severity :=
  [SeverityUnknown,
   SeverityNone,
   SeverityInfo,
   SeverityLow,
   SeverityMedium,
   SeverityHigh,
   SeverityCritical]

/-- All constants of type `TaskOutputType`, cyclonedx.go:1506-1511 -/
def TaskOutputType.all : List TaskOutputType :=
  [TaskOutputTypeArtifact,
   TaskOutputTypeAttestation,
   TaskOutputTypeEvidence,
   TaskOutputTypeLog,
   TaskOutputTypeMetrics,
   TaskOutputTypeOther]

/-- All constants of type `TaskTriggerType`, cyclonedx.go:1545-1548 -/
def TaskTriggerType.all : List TaskTriggerType :=
  [TaskTriggerTypeAPI,
   TaskTriggerTypeManual,
   TaskTriggerTypeScheduled,
   TaskTriggerTypeWebhook]

/-- All constants of type `TaskType`, cyclonedx.go:1554-1565 -/
def TaskType.all : List TaskType :=
  [TaskTypeBuild,
   TaskTypeClean,
   TaskTypeClone,
   TaskTypeCopy,
   TaskTypeDeliver,
   TaskTypeDeploy,
   TaskTypeLint,
   TaskTypeMerge,
   TaskTypeOther,
   TaskTypeRelease,
   TaskTypeScan,
   TaskTypeTest]

/-- All constants of type `TaskWorkspaceAccessMode`, cyclonedx.go:1586-1590 -/
def TaskWorkspaceAccessMode.all : List TaskWorkspaceAccessMode :=
  [TaskWorkspaceAccessModeReadOnly,
   TaskWorkspaceAccessModeReadWrite,
   TaskWorkspaceAccessModeReadWriteOnce,
   TaskWorkspaceAccessModeWriteOnce,
   TaskWorkspaceAccessModeWriteOnly]

/-- All constants of type `VolumeMode`, cyclonedx.go:1630-1631 -/
def VolumeMode.all : List VolumeMode :=
  [VolumeModeBlock,
   VolumeModeFilesystem]

/-- All constants of type `VulnerabilityStatus`, cyclonedx.go:1684-1686 -/
def VulnerabilityStatus.all : List VulnerabilityStatus :=
  [VulnerabilityStatusUnknown,
   VulnerabilityStatusAffected,
   VulnerabilityStatusNotAffected]

/-- All constants of type `PatentLegalStatus`, cyclonedx.go:1727-1739 -/
def PatentLegalStatus.all : List PatentLegalStatus :=
  [PatentLegalStatusPending,
   PatentLegalStatusGranted,
   PatentLegalStatusRevoked,
   PatentLegalStatusExpired,
   PatentLegalStatusLapsed,
   PatentLegalStatusWithdrawn,
   PatentLegalStatusAbandoned,
   PatentLegalStatusSuspended,
   PatentLegalStatusReinstated,
   PatentLegalStatusOpposed,
   PatentLegalStatusTerminated,
   PatentLegalStatusInvalidated,
   PatentLegalStatusInForce]

/-- All constants of type `PatentAssertionType`, cyclonedx.go:1791-1798 -/
def PatentAssertionType.all : List PatentAssertionType :=
  [PatentAssertionTypeOwnership,
   PatentAssertionTypeLicense,
   PatentAssertionTypeThirdPartyClaim,
   PatentAssertionTypeStandardsInclusion,
   PatentAssertionTypePriorArt,
   PatentAssertionTypeExclusiveRights,
   PatentAssertionTypeNonAssertion,
   PatentAssertionTypeResearchOrEvaluation]

/-- All constants of type `TLPClassification`, cyclonedx.go:1817-1821 -/
def TLPClassification.all : List TLPClassification :=
  [TLPClassificationClear,
   TLPClassificationGreen,
   TLPClassificationAmber,
   TLPClassificationAmberAndStrict,
   TLPClassificationRed]

/-- All constants of type `CertificateStateType`, cyclonedx.go:1896-1901 -/
def CertificateStateType.all : List CertificateStateType :=
  [CertificateStatePreActivation,
   CertificateStateActive,
   CertificateStateSuspended,
   CertificateStateDeactivated,
   CertificateStateRevoked,
   CertificateStateDestroyed]

/-- All constants of type `CertificateExtensionName`, cyclonedx.go:1928-1937 -/
def CertificateExtensionName.all : List CertificateExtensionName :=
  [CertExtBasicConstraints,
   CertExtKeyUsage,
   CertExtExtendedKeyUsage,
   CertExtSubjectAlternativeName,
   CertExtAuthorityKeyIdentifier,
   CertExtSubjectKeyIdentifier,
   CertExtAuthorityInformationAccess,
   CertExtCertificatePolicies,
   CertExtCRLDistributionPoints,
   CertExtSignedCertificateTimestamp]

end Verif
