import Verif.Model.Types
import Verif.Spec.JsonSchema

/-!
# The strings that the JSON schemas enumerate

GENERATED by `tools/gen_jenums.py` from the `enum` lists of the JSON schemas in `/repo/schema` and the struct
declarations of `/repo/cyclonedx.go`; do not edit by hand.

`Place.enums`: at each place, the members whose strings (or lists of strings) are enumerated, with the strings and the
version since which they are; the strings of the first version that declares the member stand under version 1.0.  No
schema takes a string away again.  Left out are the identifiers of SPDX licenses, which are in a file of their own, and
`$schema`.  Where alternatives enumerate different strings (the curves of public keys), all of them are listed.
`HasListed v s j`: in `j`, at any depth, every string at a place with an enumeration is one of those of version `v`.

`T.Listed v x` says the same of the value that is written; types without enumerations have no `Listed`.
`Verif.Json.EnumLaws` proves that it is exact.
-/

namespace Verif

/-- The enumerations, by the names of the members. -/
def Place.enums : Place → List (String × List (Int × List String))
  | .bom => [("bomFormat", [(SpecVersion1_0, ["CycloneDX"])])]
  | .component => [("scope", [(SpecVersion1_0, ["excluded", "optional", "required"])]),
      ("type", [(SpecVersion1_0, ["application", "container", "device", "file", "firmware", "framework", "library", "operating-system"]), (SpecVersion1_5, ["data", "device-driver", "machine-learning-model", "platform"]), (SpecVersion1_6, ["cryptographic-asset"])])]
  | .externalReference => [("type", [(SpecVersion1_0, ["advisories", "bom", "build-meta", "build-system", "chat", "distribution", "documentation", "issue-tracker", "license", "mailing-list", "other", "social", "support", "vcs", "website"]), (SpecVersion1_4, ["release-notes"]), (SpecVersion1_5, ["adversary-model", "attestation", "certification-report", "codified-infrastructure", "component-analysis-report", "configuration", "distribution-intake", "dynamic-analysis-report", "evidence", "exploitability-statement", "formulation", "log", "maturity-report", "model-card", "pentest-report", "poam", "quality-metrics", "risk-assessment", "runtime-analysis-report", "security-contact", "static-analysis-report", "threat-model", "vulnerability-assertion"]), (SpecVersion1_6, ["digital-signature", "electronic-signature", "rfc-9116", "source-distribution"]), (SpecVersion1_7, ["citation", "patent", "patent-assertion", "patent-family"])])]
  | .compositions => [("aggregate", [(SpecVersion1_0, ["complete", "incomplete", "incomplete_first_party_only", "incomplete_third_party_only", "not_specified", "unknown"]), (SpecVersion1_5, ["incomplete_first_party_opensource_only", "incomplete_first_party_proprietary_only", "incomplete_third_party_opensource_only", "incomplete_third_party_proprietary_only"])])]
  | .metadataLifecycles => [("phase", [(SpecVersion1_0, ["build", "decommission", "design", "discovery", "operations", "post-build", "pre-build"])])]
  | .licenseChoice => [("acknowledgement", [(SpecVersion1_0, ["concluded", "declared"])])]
  | .metadataDistributionConstraints => [("tlp", [(SpecVersion1_0, ["AMBER", "AMBER_AND_STRICT", "CLEAR", "GREEN", "RED"])])]
  | .hash => [("alg", [(SpecVersion1_0, ["BLAKE2b-256", "BLAKE2b-384", "BLAKE2b-512", "BLAKE3", "MD5", "SHA-1", "SHA-256", "SHA-384", "SHA-512", "SHA3-256", "SHA3-384", "SHA3-512"]), (SpecVersion1_7, ["Streebog-256", "Streebog-512"])])]
  | .patentAssertion => [("assertionType", [(SpecVersion1_0, ["exclusive-rights", "license", "non-assertion", "ownership", "prior-art", "research-or-evaluation", "standards-inclusion", "third-party-claim"])])]
  | .componentData => [("type", [(SpecVersion1_0, ["configuration", "dataset", "definition", "other", "source-code"])])]
  | .cryptoProperties => [("assetType", [(SpecVersion1_0, ["algorithm", "certificate", "protocol", "related-crypto-material"])])]
  | .serviceData => [("flow", [(SpecVersion1_0, ["bi-directional", "inbound", "outbound", "unknown"])])]
  | .rating => [("method", [(SpecVersion1_0, ["CVSSv2", "CVSSv3", "CVSSv31", "OWASP", "other"]), (SpecVersion1_5, ["CVSSv4", "SSVC"])]),
      ("severity", [(SpecVersion1_0, ["critical", "high", "info", "low", "medium", "none", "unknown"])])]
  | .vulnerabilityAnalysis => [("response", [(SpecVersion1_0, ["can_not_fix", "rollback", "update", "will_not_fix", "workaround_available"])]),
      ("justification", [(SpecVersion1_0, ["code_not_present", "code_not_reachable", "protected_at_perimeter", "protected_at_runtime", "protected_by_compiler", "protected_by_mitigating_control", "requires_configuration", "requires_dependency", "requires_environment"])]),
      ("state", [(SpecVersion1_0, ["exploitable", "false_positive", "in_triage", "not_affected", "resolved", "resolved_with_pedigree"])])]
  | .workflow => [("taskTypes", [(SpecVersion1_0, ["build", "clean", "clone", "copy", "deliver", "deploy", "lint", "merge", "other", "release", "scan", "test"])])]
  | .patentOrFamily => [("patentLegalStatus", [(SpecVersion1_0, ["abandoned", "expired", "granted", "in-force", "invalidated", "lapsed", "opposed", "pending", "reinstated", "revoked", "suspended", "terminated", "withdrawn"])])]
  | .publicKey => [("kty", [(SpecVersion1_0, ["EC", "OKP", "RSA"])]),
      ("crv", [(SpecVersion1_0, ["Ed25519", "Ed448", "P-256", "P-384", "P-521"])])]
  | .license => [("acknowledgement", [(SpecVersion1_0, ["concluded", "declared"])])]
  | .licensing => [("licenseTypes", [(SpecVersion1_0, ["academic", "appliance", "client-access", "concurrent-user", "core-points", "custom-metric", "device", "evaluation", "named-user", "node-locked", "oem", "other", "perpetual", "processor-points", "subscription", "user"])])]
  | .attachment => [("encoding", [(SpecVersion1_0, ["base64"])])]
  | .patch => [("type", [(SpecVersion1_0, ["backport", "cherry-pick", "monkey", "unofficial"])])]
  | .componentIdentityEvidence => [("field", [(SpecVersion1_0, ["cpe", "group", "hash", "name", "purl", "swid", "version"]), (SpecVersion1_6, ["omniborId", "swhid"])])]
  | .issue => [("type", [(SpecVersion1_0, ["defect", "enhancement", "security"])])]
  | .algorithmProperties => [("cryptoFunctions", [(SpecVersion1_0, ["decapsulate", "decrypt", "digest", "encapsulate", "encrypt", "generate", "keyderive", "keygen", "other", "sign", "tag", "unknown", "verify"])]),
      ("padding", [(SpecVersion1_0, ["oaep", "other", "pkcs1v15", "pkcs5", "pkcs7", "raw", "unknown"])]),
      ("mode", [(SpecVersion1_0, ["cbc", "ccm", "cfb", "ctr", "ecb", "gcm", "ofb", "other", "unknown"])]),
      ("certificationLevel", [(SpecVersion1_0, ["cc-eal1", "cc-eal1+", "cc-eal2", "cc-eal2+", "cc-eal3", "cc-eal3+", "cc-eal4", "cc-eal4+", "cc-eal5", "cc-eal5+", "cc-eal6", "cc-eal6+", "cc-eal7", "cc-eal7+", "fips140-1-l1", "fips140-1-l2", "fips140-1-l3", "fips140-1-l4", "fips140-2-l1", "fips140-2-l2", "fips140-2-l3", "fips140-2-l4", "fips140-3-l1", "fips140-3-l2", "fips140-3-l3", "fips140-3-l4", "none", "other", "unknown"])]),
      ("implementationPlatform", [(SpecVersion1_0, ["armv7-a", "armv7-m", "armv8-a", "armv8-m", "armv9-a", "armv9-m", "generic", "other", "ppc64", "ppc64le", "s390x", "unknown", "x86_32", "x86_64"])]),
      ("executionEnvironment", [(SpecVersion1_0, ["hardware", "other", "software-encrypted-ram", "software-plain-ram", "software-tee", "unknown"])]),
      ("primitive", [(SpecVersion1_0, ["ae", "block-cipher", "combiner", "drbg", "hash", "kdf", "kem", "key-agree", "mac", "other", "pke", "signature", "stream-cipher", "unknown", "xof"]), (SpecVersion1_7, ["key-wrap"])])]
  | .relatedCryptoMaterialProperties => [("state", [(SpecVersion1_0, ["active", "compromised", "deactivated", "destroyed", "pre-activation", "suspended"])]),
      ("type", [(SpecVersion1_0, ["additional-data", "ciphertext", "credential", "digest", "initialization-vector", "key", "nonce", "other", "password", "private-key", "public-key", "salt", "secret-key", "seed", "shared-secret", "signature", "tag", "token", "unknown"])])]
  | .protocolProperties => [("type", [(SpecVersion1_0, ["ike", "ipsec", "other", "ssh", "sstp", "tls", "unknown", "wpa"]), (SpecVersion1_7, ["5g-aka", "dtls", "eap-aka", "eap-aka-prime", "prins", "quic"])])]
  | .affectedVersions => [("status", [(SpecVersion1_0, ["affected", "unaffected", "unknown"])])]
  | .task => [("taskTypes", [(SpecVersion1_0, ["build", "clean", "clone", "copy", "deliver", "deploy", "lint", "merge", "other", "release", "scan", "test"])])]
  | .trigger => [("type", [(SpecVersion1_0, ["api", "manual", "scheduled", "webhook"])])]
  | .outputType => [("type", [(SpecVersion1_0, ["artifact", "attestation", "evidence", "log", "metrics", "other"])])]
  | .workspace => [("accessMode", [(SpecVersion1_0, ["read-only", "read-write", "read-write-once", "write-once", "write-only"])])]
  | .componentIdentityEvidenceMethods => [("technique", [(SpecVersion1_0, ["ast-fingerprint", "attestation", "binary-analysis", "dynamic-analysis", "filename", "hash-comparison", "instrumentation", "manifest-analysis", "other", "source-code-analysis"])])]
  | .modelCardModelParametersApproach => [("type", [(SpecVersion1_0, ["reinforcement-learning", "self-supervised", "semi-supervised", "supervised", "unsupervised"])])]
  | .modelDataset => [("type", [(SpecVersion1_0, ["configuration", "dataset", "definition", "other", "source-code"])])]
  | .certificateState => [("state", [(SpecVersion1_0, ["active", "deactivated", "destroyed", "pre-activation", "revoked", "suspended"])])]
  | .certificateExtension => [("commonExtensionName", [(SpecVersion1_0, ["authorityInformationAccess", "authorityKeyIdentifier", "basicConstraints", "certificatePolicies", "crlDistributionPoints", "extendedKeyUsage", "keyUsage", "signedCertificateTimestamp", "subjectAlternativeName", "subjectKeyIdentifier"])])]
  | .volume => [("mode", [(SpecVersion1_0, ["block", "filesystem"])])]
  | .energyConsumption => [("activity", [(SpecVersion1_0, ["data-collection", "data-preparation", "deployment", "design", "fine-tuning", "inference", "other", "training", "validation"])])]
  | .energyProvider => [("energySource", [(SpecVersion1_0, ["biofuel", "coal", "geothermal", "hydropower", "natural-gas", "nuclear", "oil", "other", "solar", "unknown", "wind"])])]
  | .energyMeasure => [("unit", [(SpecVersion1_0, ["kWh"])])]
  | .co2Measure => [("unit", [(SpecVersion1_0, ["tCO2eq"])])]
  | _ => []

/-- The schema of version `v` allows the string `s` as (or in) the member `k` of an object at the place. -/
def Place.Lists (v : Int) (p : Place) (k : String) (s : String) : Prop :=
  ∀ gs, p.enums.lookup k = some gs → ∃ g ∈ gs, g.1 ≤ v ∧ s ∈ g.2

/-- The same of the value of the member. -/
def Place.ListsValue (v : Int) (p : Place) (k : String) : Json → Prop
  | .str s => p.Lists v k s
  | .arr js => ∀ s, .str s ∈ js → p.Lists v k s
  | _ => True

/-- Every string in the value is enumerated, where `s` is declared for the value itself. -/
inductive HasListed (v : Int) : Sch → Json → Prop
  | str (j : Json) : HasListed v .str j
  | num (j : Json) : HasListed v .num j
  | int (j : Json) : HasListed v .int j
  | bool (j : Json) : HasListed v .bool j
  | list {s : Sch} {js : List Json} (h : ∀ j ∈ js, HasListed v s j) : HasListed v (.list s) (.arr js)
  | noList {s : Sch} {j : Json} (h : ∀ js, j ≠ .arr js) : HasListed v (.list s) j
  | place {p : Place} {ms : List (String × Json)} (own : ∀ m ∈ ms, p.ListsValue v m.1 m.2)
      (h : ∀ m ∈ ms, ∀ s, p.members.lookup m.1 = some s → HasListed v s m.2) : HasListed v (.place p) (.obj ms)
  | noPlace {p : Place} {j : Json} (h : ∀ ms, j ≠ .obj ms) : HasListed v (.place p) j
  | alt {s t : Sch} {j : Json} (hs : HasListed v s j) (ht : HasListed v t j) : HasListed v (.alt s t) j
  | since {n : Int} {s : Sch} {j : Json} (h : HasListed v s j) : HasListed v (.since n s) j

/-- Every string in the document is one that the schema of version `v` enumerates at its place. -/
def Json.Listed (v : Int) (j : Json) : Prop := HasListed v (.place .bom) j

/-- cyclonedx.go:40-44 -/
def AffectedVersions.Listed (v : Int) (x : AffectedVersions) : Prop :=
  Place.Lists v .affectedVersions "status" x.status

/-- cyclonedx.go:46-49 -/
def Affects.Listed (v : Int) (x : Affects) : Prop :=
  (∀ y ∈ x.range.elems, AffectedVersions.Listed v y)

/-- cyclonedx.go:73-77 -/
def AttachedText.Listed (v : Int) (x : AttachedText) : Prop :=
  (x.encoding ≠ "" → Place.Lists v .attachment "encoding" x.encoding)

/-- cyclonedx.go:290-294 -/
def ComponentDataContents.Listed (v : Int) (x : ComponentDataContents) : Prop :=
  (∀ y ∈ x.attachment, AttachedText.Listed v y)

/-- cyclonedx.go:301-304 -/
def ComponentDataGraphic.Listed (v : Int) (x : ComponentDataGraphic) : Prop :=
  (∀ y ∈ x.image, AttachedText.Listed v y)

/-- cyclonedx.go:306-309 -/
def ComponentDataGraphics.Listed (v : Int) (x : ComponentDataGraphics) : Prop :=
  (∀ y ∈ x.collection.elems, ComponentDataGraphic.Listed v y)

/-- cyclonedx.go:278-288 -/
def ComponentData.Listed (v : Int) (x : ComponentData) : Prop :=
  (x.type ≠ "" → Place.Lists v .componentData "type" x.type) ∧
  (∀ y ∈ x.contents, ComponentDataContents.Listed v y) ∧
  (∀ y ∈ x.graphics, ComponentDataGraphics.Listed v y)

/-- cyclonedx.go:278-288, at the place modelDataset of the schema -/
def ComponentData.ListedModelDataset (v : Int) (x : ComponentData) : Prop :=
  (x.type ≠ "" → Place.Lists v .modelDataset "type" x.type) ∧
  (∀ y ∈ x.contents, ComponentDataContents.Listed v y) ∧
  (∀ y ∈ x.graphics, ComponentDataGraphics.Listed v y)

/-- cyclonedx.go:808-811 -/
def Hash.Listed (v : Int) (x : Hash) : Prop :=
  Place.Lists v .hash "alg" x.algorithm

/-- cyclonedx.go:1880-1883 -/
def PredefinedCertificateState.Listed (v : Int) (x : PredefinedCertificateState) : Prop :=
  Place.Lists v .certificateState "state" x.state

/-- cyclonedx.go:1874-1877; the name of a predefined state. -/
def CertificateState.Listed (v : Int) (x : CertificateState) : Prop :=
  ∀ y ∈ x.predefined, PredefinedCertificateState.Listed v y

/-- cyclonedx.go:1913-1916 -/
def CommonCertificateExtension.Listed (v : Int) (x : CommonCertificateExtension) : Prop :=
  Place.Lists v .certificateExtension "commonExtensionName" x.name

/-- cyclonedx.go:1907-1910; the name of a common extension. -/
def CertificateExtension.Listed (v : Int) (x : CertificateExtension) : Prop :=
  ∀ y ∈ x.common, CommonCertificateExtension.Listed v y

/-- cyclonedx.go:171-191 -/
def CertificateProperties.Listed (v : Int) (x : CertificateProperties) : Prop :=
  (∀ y ∈ x.fingerprint, Hash.Listed v y) ∧
  (∀ y ∈ x.certificateState.elems, CertificateState.Listed v y) ∧
  (∀ y ∈ x.certificateExtensions.elems, CertificateExtension.Listed v y)

/-- cyclonedx.go:368-382 -/
def CryptoAlgorithmProperties.Listed (v : Int) (x : CryptoAlgorithmProperties) : Prop :=
  (x.primitive ≠ "" → Place.Lists v .algorithmProperties "primitive" x.primitive) ∧
  (x.executionEnvironment ≠ "" → Place.Lists v .algorithmProperties "executionEnvironment" x.executionEnvironment) ∧
  (x.implementationPlatform ≠ "" → Place.Lists v .algorithmProperties "implementationPlatform" x.implementationPlatform) ∧
  (∀ y ∈ x.certificationLevel.elems, Place.Lists v .algorithmProperties "certificationLevel" y) ∧
  (x.mode ≠ "" → Place.Lists v .algorithmProperties "mode" x.mode) ∧
  (x.padding ≠ "" → Place.Lists v .algorithmProperties "padding" x.padding) ∧
  (∀ y ∈ x.cryptoFunctions.elems, Place.Lists v .algorithmProperties "cryptoFunctions" y)

/-- cyclonedx.go:509-516 -/
def CryptoProtocolProperties.Listed (v : Int) (x : CryptoProtocolProperties) : Prop :=
  (x.type ≠ "" → Place.Lists v .protocolProperties "type" x.type)

/-- cyclonedx.go:1282-1297 -/
def RelatedCryptoMaterialProperties.Listed (v : Int) (x : RelatedCryptoMaterialProperties) : Prop :=
  (x.type ≠ "" → Place.Lists v .relatedCryptoMaterialProperties "type" x.type) ∧
  (x.state ≠ "" → Place.Lists v .relatedCryptoMaterialProperties "state" x.state) ∧
  (∀ y ∈ x.fingerprint, Hash.Listed v y)

/-- cyclonedx.go:500-507 -/
def CryptoProperties.Listed (v : Int) (x : CryptoProperties) : Prop :=
  Place.Lists v .cryptoProperties "assetType" x.assetType ∧
  (∀ y ∈ x.algorithmProperties, CryptoAlgorithmProperties.Listed v y) ∧
  (∀ y ∈ x.certificateProperties, CertificateProperties.Listed v y) ∧
  (∀ y ∈ x.relatedCryptoMaterialProperties, RelatedCryptoMaterialProperties.Listed v y) ∧
  (∀ y ∈ x.protocolProperties, CryptoProtocolProperties.Listed v y)

/-- cyclonedx.go:710-714 -/
def EvidenceIdentityMethod.Listed (v : Int) (x : EvidenceIdentityMethod) : Prop :=
  (x.technique ≠ "" → Place.Lists v .componentIdentityEvidenceMethods "technique" x.technique)

/-- cyclonedx.go:688-694 -/
def EvidenceIdentity.Listed (v : Int) (x : EvidenceIdentity) : Prop :=
  (x.field ≠ "" → Place.Lists v .componentIdentityEvidence "field" x.field) ∧
  (∀ y ∈ x.methods.elems, EvidenceIdentityMethod.Listed v y)

/-- cyclonedx.go:683-686; the identities, in either form. -/
def EvidenceIdentityChoice.Listed (v : Int) (x : EvidenceIdentityChoice) : Prop :=
  (∀ y ∈ x.identity, EvidenceIdentity.Listed v y) ∧ ∀ y ∈ x.identities.elems, EvidenceIdentity.Listed v y

/-- cyclonedx.go:995-1004 -/
def Licensing.Listed (v : Int) (x : Licensing) : Prop :=
  (∀ y ∈ x.licenseTypes.elems, Place.Lists v .licensing "licenseTypes" y)

/-- cyclonedx.go:936-945 -/
def License.Listed (v : Int) (x : License) : Prop :=
  (x.acknowledgement ≠ "" → Place.Lists v .license "acknowledgement" x.acknowledgement) ∧
  (∀ y ∈ x.text, AttachedText.Listed v y) ∧
  (∀ y ∈ x.licensing, Licensing.Listed v y)

/-- cyclonedx.go:967-972 -/
def LicenseExpressionDetail.Listed (v : Int) (x : LicenseExpressionDetail) : Prop :=
  (∀ y ∈ x.text, AttachedText.Listed v y)

/-- cyclonedx.go:956-964 -/
def LicenseChoice.Listed (v : Int) (x : LicenseChoice) : Prop :=
  (∀ y ∈ x.license, License.Listed v y) ∧
  (∀ y ∈ x.expressionDetails.elems, LicenseExpressionDetail.Listed v y) ∧
  (∀ y ∈ x.acknowledgement, Place.Lists v .licenseChoice "acknowledgement" y) ∧
  (∀ y ∈ x.licensing, Licensing.Listed v y)

/-- cyclonedx.go:672-678 -/
def Evidence.Listed (v : Int) (x : Evidence) : Prop :=
  (∀ y ∈ x.identity, EvidenceIdentityChoice.Listed v y) ∧
  (∀ y ∈ x.licenses.elems, LicenseChoice.Listed v y)

/-- cyclonedx.go:740-746 -/
def ExternalReference.Listed (v : Int) (x : ExternalReference) : Prop :=
  (∀ y ∈ x.hashes.elems, Hash.Listed v y) ∧
  Place.Lists v .externalReference "type" x.type

/-- cyclonedx.go:925-934 -/
def JSFPublicKey.Listed (v : Int) (x : JSFPublicKey) : Prop :=
  (x.kty ≠ "" → Place.Lists v .publicKey "kty" x.kty) ∧
  (x.crv ≠ "" → Place.Lists v .publicKey "crv" x.crv)

/-- cyclonedx.go:916-923 -/
def JSFSigner.Listed (v : Int) (x : JSFSigner) : Prop :=
  JSFPublicKey.Listed v x.publicKey

/-- cyclonedx.go:909-914 -/
def JSFSignature.Listed (v : Int) (x : JSFSignature) : Prop :=
  (∀ y ∈ x.signers.elems, JSFSigner.Listed v y) ∧
  (∀ y ∈ x.chain.elems, JSFSigner.Listed v y)

/-- cyclonedx.go:1099-1102 -/
def MLModelCO2Measure.Listed (v : Int) (x : MLModelCO2Measure) : Prop :=
  Place.Lists v .co2Measure "unit" x.unit

/-- cyclonedx.go:1131-1134 -/
def MLModelEnergyMeasure.Listed (v : Int) (x : MLModelEnergyMeasure) : Prop :=
  Place.Lists v .energyMeasure "unit" x.unit

/-- cyclonedx.go:1136-1143 -/
def MLModelEnergyProvider.Listed (v : Int) (x : MLModelEnergyProvider) : Prop :=
  Place.Lists v .energyProvider "energySource" x.energySource ∧
  (∀ y ∈ x.energyProvided, MLModelEnergyMeasure.Listed v y) ∧
  (∀ y ∈ x.externalReferences.elems, ExternalReference.Listed v y)

/-- cyclonedx.go:1108-1115 -/
def MLModelEnergyConsumption.Listed (v : Int) (x : MLModelEnergyConsumption) : Prop :=
  Place.Lists v .energyConsumption "activity" x.activity ∧
  (∀ y ∈ x.energyProviders.elems, MLModelEnergyProvider.Listed v y) ∧
  MLModelEnergyMeasure.Listed v x.activityEnergyCost ∧
  (∀ y ∈ x.co2CostEquivalent, MLModelCO2Measure.Listed v y) ∧
  (∀ y ∈ x.co2CostOffset, MLModelCO2Measure.Listed v y)

/-- cyclonedx.go:1082-1085 -/
def MLModelCardEnvironmentalConsiderations.Listed (v : Int) (x : MLModelCardEnvironmentalConsiderations) : Prop :=
  (∀ y ∈ x.energyConsumptions.elems, MLModelEnergyConsumption.Listed v y)

/-- cyclonedx.go:1072-1080 -/
def MLModelCardConsiderations.Listed (v : Int) (x : MLModelCardConsiderations) : Prop :=
  (∀ y ∈ x.environmentalConsiderations, MLModelCardEnvironmentalConsiderations.Listed v y)

/-- cyclonedx.go:1056-1059; the reference hides the data. -/
def MLDatasetChoice.Listed (v : Int) (x : MLDatasetChoice) : Prop :=
  x.ref = "" → ∀ y ∈ x.componentData, ComponentData.ListedModelDataset v y

/-- cyclonedx.go:1175-1177 -/
def MLModelParametersApproach.Listed (v : Int) (x : MLModelParametersApproach) : Prop :=
  (x.type ≠ "" → Place.Lists v .modelCardModelParametersApproach "type" x.type)

/-- cyclonedx.go:1165-1173 -/
def MLModelParameters.Listed (v : Int) (x : MLModelParameters) : Prop :=
  (∀ y ∈ x.approach, MLModelParametersApproach.Listed v y) ∧
  (∀ y ∈ x.datasets.elems, MLDatasetChoice.Listed v y)

/-- cyclonedx.go:1189-1192 -/
def MLQuantitativeAnalysis.Listed (v : Int) (x : MLQuantitativeAnalysis) : Prop :=
  (∀ y ∈ x.graphics, ComponentDataGraphics.Listed v y)

/-- cyclonedx.go:1065-1070 -/
def MLModelCard.Listed (v : Int) (x : MLModelCard) : Prop :=
  (∀ y ∈ x.modelParameters, MLModelParameters.Listed v y) ∧
  (∀ y ∈ x.quantitativeAnalysis, MLQuantitativeAnalysis.Listed v y) ∧
  (∀ y ∈ x.considerations, MLModelCardConsiderations.Listed v y)

/-- cyclonedx.go:650-653 -/
def Diff.Listed (v : Int) (x : Diff) : Prop :=
  (∀ y ∈ x.text, AttachedText.Listed v y)

/-- cyclonedx.go:892-899 -/
def Issue.Listed (v : Int) (x : Issue) : Prop :=
  Place.Lists v .issue "type" x.type

/-- cyclonedx.go:1237-1241 -/
def Patch.Listed (v : Int) (x : Patch) : Prop :=
  (∀ y ∈ x.diff, Diff.Listed v y) ∧
  (∀ y ∈ x.resolves.elems, Issue.Listed v y) ∧
  Place.Lists v .patch "type" x.type

/-- cyclonedx.go:1206-1209 -/
def Note.Listed (v : Int) (x : Note) : Prop :=
  AttachedText.Listed v x.text

/-- cyclonedx.go:1323-1335 -/
def ReleaseNotes.Listed (v : Int) (x : ReleaseNotes) : Prop :=
  (∀ y ∈ x.resolves.elems, Issue.Listed v y) ∧
  (∀ y ∈ x.notes.elems, Note.Listed v y)

/-- cyclonedx.go:1449-1457 -/
def SWID.Listed (v : Int) (x : SWID) : Prop :=
  (∀ y ∈ x.text, AttachedText.Listed v y)

/-- cyclonedx.go:1779-1785 -/
def PatentAssertion.Listed (v : Int) (x : PatentAssertion) : Prop :=
  Place.Lists v .patentAssertion "assertionType" x.assertionType

mutual
/-- cyclonedx.go:239-276 -/
def Component.Listed (v : Int) : Component → Prop
  | .mk _ _ type _ _ _ _ _ _ _ _ _ scope hashes licenses _ _ _ _ _ swid _ pedigree externalReferences _ components evidence releaseNotes modelCard data cryptoProperties _ _ patentAssertions _ signature =>
    Place.Lists v .component "type" type ∧
    (scope ≠ "" → Place.Lists v .component "scope" scope) ∧
    (∀ y ∈ hashes.elems, Hash.Listed v y) ∧
    (∀ y ∈ licenses.elems, LicenseChoice.Listed v y) ∧
    (∀ y ∈ swid, SWID.Listed v y) ∧
    ListedPedigreeOpt v pedigree ∧
    (∀ y ∈ externalReferences.elems, ExternalReference.Listed v y) ∧
    ListedComponents v components ∧
    (∀ y ∈ evidence, Evidence.Listed v y) ∧
    (∀ y ∈ releaseNotes, ReleaseNotes.Listed v y) ∧
    (∀ y ∈ modelCard, MLModelCard.Listed v y) ∧
    (∀ y ∈ data.elems, ComponentData.Listed v y) ∧
    (∀ y ∈ cryptoProperties, CryptoProperties.Listed v y) ∧
    (∀ y ∈ patentAssertions.elems, PatentAssertion.Listed v y) ∧
    (∀ y ∈ signature, JSFSignature.Listed v y)
/-- A list of components, at any depth. -/
def ListedComponents (v : Int) : PSlice Component → Prop
  | .nil => True
  | .nilSlice => True
  | .list xs => ListedComponentList v xs
/-- A list of components, at any depth. -/
def ListedComponentList (v : Int) : List Component → Prop
  | [] => True
  | c :: cs => c.Listed v ∧ ListedComponentList v cs
/-- An optional pedigree. -/
def ListedPedigreeOpt (v : Int) : Option (Pedigree Component) → Prop
  | none => True
  | some p => ListedPedigree v p
/-- cyclonedx.go:1252-1259 -/
def ListedPedigree (v : Int) : Pedigree Component → Prop
  | .mk ancestors descendants variants _ patches _ =>
    ListedComponents v ancestors ∧
    ListedComponents v descendants ∧
    ListedComponents v variants ∧
    (∀ y ∈ patches.elems, Patch.Listed v y)
end

/-- cyclonedx.go:551-559 -/
def DataClassification.Listed (v : Int) (x : DataClassification) : Prop :=
  Place.Lists v .serviceData "flow" x.flow

mutual
/-- cyclonedx.go:1362-1382 -/
def Service.Listed (v : Int) : Service → Prop
  | .mk _ _ _ _ _ _ _ _ _ data licenses externalReferences _ services releaseNotes _ _ patentAssertions signature =>
    (∀ y ∈ data.elems, DataClassification.Listed v y) ∧
    (∀ y ∈ licenses.elems, LicenseChoice.Listed v y) ∧
    (∀ y ∈ externalReferences.elems, ExternalReference.Listed v y) ∧
    ListedServices v services ∧
    (∀ y ∈ releaseNotes, ReleaseNotes.Listed v y) ∧
    (∀ y ∈ patentAssertions.elems, PatentAssertion.Listed v y) ∧
    (∀ y ∈ signature, JSFSignature.Listed v y)
/-- A list of services, at any depth. -/
def ListedServices (v : Int) : PSlice Service → Prop
  | .nil => True
  | .nilSlice => True
  | .list xs => ListedServiceList v xs
/-- A list of services, at any depth. -/
def ListedServiceList (v : Int) : List Service → Prop
  | [] => True
  | c :: cs => c.Listed v ∧ ListedServiceList v cs
end

/-- cyclonedx.go:60-65 -/
def Annotator.Listed (v : Int) (x : Annotator) : Prop :=
  (∀ y ∈ x.component, Component.Listed v y) ∧
  (∀ y ∈ x.service, Service.Listed v y)

/-- cyclonedx.go:51-58 -/
def Annotation.Listed (v : Int) (x : Annotation) : Prop :=
  (∀ y ∈ x.annotator, Annotator.Listed v y) ∧
  (∀ y ∈ x.signature, JSFSignature.Listed v y)

/-- cyclonedx.go:79-84 -/
def Attestation.Listed (v : Int) (x : Attestation) : Prop :=
  (∀ y ∈ x.signature, JSFSignature.Listed v y)

/-- cyclonedx.go:321-328 -/
def Composition.Listed (v : Int) (x : Composition) : Prop :=
  Place.Lists v .compositions "aggregate" x.aggregate ∧
  (∀ y ∈ x.signature, JSFSignature.Listed v y)

/-- cyclonedx.go:193-203 -/
def Claim.Listed (v : Int) (x : Claim) : Prop :=
  (∀ y ∈ x.externalReferences.elems, ExternalReference.Listed v y) ∧
  (∀ y ∈ x.signature, JSFSignature.Listed v y)

/-- cyclonedx.go:619-622 -/
def EvidenceDataContents.Listed (v : Int) (x : EvidenceDataContents) : Prop :=
  (∀ y ∈ x.attachment, AttachedText.Listed v y)

/-- cyclonedx.go:611-617 -/
def EvidenceData.Listed (v : Int) (x : EvidenceData) : Prop :=
  (∀ y ∈ x.contents, EvidenceDataContents.Listed v y)

/-- cyclonedx.go:586-596 -/
def DeclarationEvidence.Listed (v : Int) (x : DeclarationEvidence) : Prop :=
  (∀ y ∈ x.data.elems, EvidenceData.Listed v y) ∧
  (∀ y ∈ x.signature, JSFSignature.Listed v y)

/-- cyclonedx.go:624-628 -/
def Targets.Listed (v : Int) (x : Targets) : Prop :=
  (∀ y ∈ x.components.elems, Component.Listed v y) ∧
  (∀ y ∈ x.services.elems, Service.Listed v y)

/-- cyclonedx.go:636-642 -/
def Signatory.Listed (v : Int) (x : Signatory) : Prop :=
  (∀ y ∈ x.signature, JSFSignature.Listed v y) ∧
  (∀ y ∈ x.externalReference, ExternalReference.Listed v y)

/-- cyclonedx.go:630-634 -/
def Affirmation.Listed (v : Int) (x : Affirmation) : Prop :=
  (∀ y ∈ x.signatories.elems, Signatory.Listed v y) ∧
  (∀ y ∈ x.signature, JSFSignature.Listed v y)

/-- cyclonedx.go:576-584 -/
def Declarations.Listed (v : Int) (x : Declarations) : Prop :=
  (∀ y ∈ x.attestations.elems, Attestation.Listed v y) ∧
  (∀ y ∈ x.claims.elems, Claim.Listed v y) ∧
  (∀ y ∈ x.evidence.elems, DeclarationEvidence.Listed v y) ∧
  (∀ y ∈ x.targets, Targets.Listed v y) ∧
  (∀ y ∈ x.affirmation, Affirmation.Listed v y) ∧
  (∀ y ∈ x.signature, JSFSignature.Listed v y)

/-- cyclonedx.go:1743-1758 -/
def Patent.Listed (v : Int) (x : Patent) : Prop :=
  Place.Lists v .patentOrFamily "patentLegalStatus" x.patentLegalStatus ∧
  (∀ y ∈ x.externalReferences.elems, ExternalReference.Listed v y)

/-- cyclonedx.go:1761-1767 -/
def PatentFamily.Listed (v : Int) (x : PatentFamily) : Prop :=
  (∀ y ∈ x.externalReferences.elems, ExternalReference.Listed v y)

/-- cyclonedx.go:606-609; a patent hides the family. -/
def PatentChoice.Listed (v : Int) (x : PatentChoice) : Prop :=
  (∀ y ∈ x.patent, Patent.Listed v y) ∧ (x.patent = none → ∀ y ∈ x.patentFamily, PatentFamily.Listed v y)

/-- cyclonedx.go:1429-1439 -/
def StandardRequirement.Listed (v : Int) (x : StandardRequirement) : Prop :=
  (∀ y ∈ x.externalReferences.elems, ExternalReference.Listed v y)

/-- cyclonedx.go:1416-1427 -/
def StandardDefinition.Listed (v : Int) (x : StandardDefinition) : Prop :=
  (∀ y ∈ x.requirements.elems, StandardRequirement.Listed v y) ∧
  (∀ y ∈ x.externalReferences.elems, ExternalReference.Listed v y) ∧
  (∀ y ∈ x.signature, JSFSignature.Listed v y)

/-- cyclonedx.go:598-601 -/
def Definitions.Listed (v : Int) (x : Definitions) : Prop :=
  (∀ y ∈ x.standards.elems, StandardDefinition.Listed v y) ∧
  (∀ y ∈ x.patents.elems, PatentChoice.Listed v y)

/-- cyclonedx.go:1337-1340 -/
def ResourceReferenceChoice.Listed (v : Int) (x : ResourceReferenceChoice) : Prop :=
  (∀ y ∈ x.externalReference, ExternalReference.Listed v y)

/-- cyclonedx.go:1482-1490 -/
def TaskInput.Listed (v : Int) (x : TaskInput) : Prop :=
  (∀ y ∈ x.resource, ResourceReferenceChoice.Listed v y) ∧
  (∀ y ∈ x.data, AttachedText.Listed v y) ∧
  (∀ y ∈ x.source, ResourceReferenceChoice.Listed v y) ∧
  (∀ y ∈ x.target, ResourceReferenceChoice.Listed v y)

/-- cyclonedx.go:1492-1501 -/
def TaskOutput.Listed (v : Int) (x : TaskOutput) : Prop :=
  (∀ y ∈ x.resource, ResourceReferenceChoice.Listed v y) ∧
  (∀ y ∈ x.data, AttachedText.Listed v y) ∧
  (x.type ≠ "" → Place.Lists v .outputType "type" x.type) ∧
  (∀ y ∈ x.source, ResourceReferenceChoice.Listed v y) ∧
  (∀ y ∈ x.target, ResourceReferenceChoice.Listed v y)

/-- cyclonedx.go:662-670 -/
def Event.Listed (v : Int) (x : Event) : Prop :=
  (∀ y ∈ x.data, AttachedText.Listed v y) ∧
  (∀ y ∈ x.source, ResourceReferenceChoice.Listed v y) ∧
  (∀ y ∈ x.target, ResourceReferenceChoice.Listed v y)

/-- cyclonedx.go:1521-1534 -/
def TaskTrigger.Listed (v : Int) (x : TaskTrigger) : Prop :=
  (∀ y ∈ x.resourceReferences.elems, ResourceReferenceChoice.Listed v y) ∧
  (x.type ≠ "" → Place.Lists v .trigger "type" x.type) ∧
  (∀ y ∈ x.event, Event.Listed v y) ∧
  (∀ y ∈ x.inputs.elems, TaskInput.Listed v y) ∧
  (∀ y ∈ x.outputs.elems, TaskOutput.Listed v y)

/-- cyclonedx.go:1616-1625 -/
def Volume.Listed (v : Int) (x : Volume) : Prop :=
  (x.mode ≠ "" → Place.Lists v .volume "mode" x.mode)

/-- cyclonedx.go:1568-1581 -/
def TaskWorkspace.Listed (v : Int) (x : TaskWorkspace) : Prop :=
  (∀ y ∈ x.resourceReferences.elems, ResourceReferenceChoice.Listed v y) ∧
  (x.accessMode ≠ "" → Place.Lists v .workspace "accessMode" x.accessMode) ∧
  (∀ y ∈ x.volume, Volume.Listed v y)

/-- cyclonedx.go:1459-1475 -/
def Task.Listed (v : Int) (x : Task) : Prop :=
  (∀ y ∈ x.resourceReferences.elems, ResourceReferenceChoice.Listed v y) ∧
  (∀ y ∈ x.taskTypes.elems, Place.Lists v .task "taskTypes" y) ∧
  (∀ y ∈ x.trigger, TaskTrigger.Listed v y) ∧
  (∀ y ∈ x.inputs.elems, TaskInput.Listed v y) ∧
  (∀ y ∈ x.outputs.elems, TaskOutput.Listed v y) ∧
  (∀ y ∈ x.workspaces.elems, TaskWorkspace.Listed v y)

/-- cyclonedx.go:1689-1707 -/
def Workflow.Listed (v : Int) (x : Workflow) : Prop :=
  (∀ y ∈ x.resourceReferences.elems, ResourceReferenceChoice.Listed v y) ∧
  (∀ y ∈ x.tasks.elems, Task.Listed v y) ∧
  (∀ y ∈ x.taskTypes.elems, Place.Lists v .workflow "taskTypes" y) ∧
  (∀ y ∈ x.trigger, TaskTrigger.Listed v y) ∧
  (∀ y ∈ x.inputs.elems, TaskInput.Listed v y) ∧
  (∀ y ∈ x.outputs.elems, TaskOutput.Listed v y) ∧
  (∀ y ∈ x.workspaces.elems, TaskWorkspace.Listed v y)

/-- cyclonedx.go:800-806 -/
def Formula.Listed (v : Int) (x : Formula) : Prop :=
  (∀ y ∈ x.components.elems, Component.Listed v y) ∧
  (∀ y ∈ x.services.elems, Service.Listed v y) ∧
  (∀ y ∈ x.workflows.elems, Workflow.Listed v y)

/-- cyclonedx.go:1006-1010 -/
def Lifecycle.Listed (v : Int) (x : Lifecycle) : Prop :=
  (x.phase ≠ "" → Place.Lists v .metadataLifecycles "phase" x.phase)

/-- cyclonedx.go:1594-1600 -/
def Tool.Listed (v : Int) (x : Tool) : Prop :=
  (∀ y ∈ x.hashes.elems, Hash.Listed v y) ∧
  (∀ y ∈ x.externalReferences.elems, ExternalReference.Listed v y)

/-- cyclonedx.go:1610-1614; the tools, or the components and services. -/
def ToolsChoice.Listed (v : Int) (x : ToolsChoice) : Prop :=
  (∀ y ∈ x.tools.elems, Tool.Listed v y) ∧ (∀ y ∈ x.components.elems, Component.Listed v y) ∧ ∀ y ∈ x.services.elems, Service.Listed v y

/-- cyclonedx.go:1809-1811 -/
def DistributionConstraints.Listed (v : Int) (x : DistributionConstraints) : Prop :=
  (x.tlp ≠ "" → Place.Lists v .metadataDistributionConstraints "tlp" x.tlp)

/-- cyclonedx.go:1042-1054 -/
def Metadata.Listed (v : Int) (x : Metadata) : Prop :=
  (∀ y ∈ x.lifecycles.elems, Lifecycle.Listed v y) ∧
  (∀ y ∈ x.tools, ToolsChoice.Listed v y) ∧
  (∀ y ∈ x.component, Component.Listed v y) ∧
  (∀ y ∈ x.licenses.elems, LicenseChoice.Listed v y) ∧
  (∀ y ∈ x.distributionConstraints, DistributionConstraints.Listed v y)

/-- cyclonedx.go:1271-1275 -/
def ProofOfConcept.Listed (v : Int) (x : ProofOfConcept) : Prop :=
  (∀ y ∈ x.supportingMaterial.elems, AttachedText.Listed v y)

/-- cyclonedx.go:1658-1665 -/
def VulnerabilityAnalysis.Listed (v : Int) (x : VulnerabilityAnalysis) : Prop :=
  (x.state ≠ "" → Place.Lists v .vulnerabilityAnalysis "state" x.state) ∧
  (x.justification ≠ "" → Place.Lists v .vulnerabilityAnalysis "justification" x.justification) ∧
  (∀ y ∈ x.response.elems, Place.Lists v .vulnerabilityAnalysis "response" y)

/-- cyclonedx.go:1667-1674 -/
def VulnerabilityRating.Listed (v : Int) (x : VulnerabilityRating) : Prop :=
  (x.severity ≠ "" → Place.Lists v .rating "severity" x.severity) ∧
  (x.method ≠ "" → Place.Lists v .rating "method" x.method)

/-- cyclonedx.go:1634-1656 -/
def Vulnerability.Listed (v : Int) (x : Vulnerability) : Prop :=
  (∀ y ∈ x.ratings.elems, VulnerabilityRating.Listed v y) ∧
  (∀ y ∈ x.proofOfConcept, ProofOfConcept.Listed v y) ∧
  (∀ y ∈ x.tools, ToolsChoice.Listed v y) ∧
  (∀ y ∈ x.analysis, VulnerabilityAnalysis.Listed v y) ∧
  (∀ y ∈ x.affects.elems, Affects.Listed v y)

/-- cyclonedx.go:1712-1721 -/
def Citation.Listed (v : Int) (x : Citation) : Prop :=
  (∀ y ∈ x.signature, JSFSignature.Listed v y)

/-- cyclonedx.go:105-131 -/
def BOM.Listed (v : Int) (x : BOM) : Prop :=
  Place.Lists v .bom "bomFormat" x.bomFormat ∧
  (∀ y ∈ x.metadata, Metadata.Listed v y) ∧
  (∀ y ∈ x.components.elems, Component.Listed v y) ∧
  (∀ y ∈ x.services.elems, Service.Listed v y) ∧
  (∀ y ∈ x.externalReferences.elems, ExternalReference.Listed v y) ∧
  (∀ y ∈ x.compositions.elems, Composition.Listed v y) ∧
  (∀ y ∈ x.vulnerabilities.elems, Vulnerability.Listed v y) ∧
  (∀ y ∈ x.annotations.elems, Annotation.Listed v y) ∧
  (∀ y ∈ x.formulation.elems, Formula.Listed v y) ∧
  (∀ y ∈ x.declarations, Declarations.Listed v y) ∧
  (∀ y ∈ x.definitions, Definitions.Listed v y) ∧
  (∀ y ∈ x.citations.elems, Citation.Listed v y) ∧
  (∀ y ∈ x.signature, JSFSignature.Listed v y)

end Verif
