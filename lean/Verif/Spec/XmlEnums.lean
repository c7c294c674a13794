import Verif.Model.Types
import Verif.Spec.XmlRefused

/-!
# The strings that the XML schemas enumerate

GENERATED by `tools/gen_xenums.py` from the `xs:enumeration`s of the XML schemas in `/repo/schema` and the struct
declarations of `/repo/cyclonedx.go`; do not edit by hand.

`XPlace.enumAttrs`, `XPlace.enumElems`: at each place, the attributes and the elements whose text is enumerated, with the
strings and the version since which they are; the strings of the first version that declares the attribute or element
stand under version 1.0.  No schema takes a string away again.  Left out are the identifiers of SPDX licenses, which are
in a file of their own.  Energy and CO2 measures are one place, with both units.
`XListed v p x`: in the element `x`, at any depth, every text at a place with an enumeration is one of those of version
`v`.

`T.XListed v x` says the same of the value that is written; types without enumerations have no `XListed`.
`Verif.Xml.ListedLaws` proves that it is exact.
-/

namespace Verif

open Xml (textOf)

/-- The enumerations of attributes, by their names. -/
def XPlace.enumAttrs : XPlace → List (String × List (Int × List String))
  | .component => [("type", [(SpecVersion1_0, ["application", "device", "framework", "library", "operating-system"]), (SpecVersion1_1, ["file"]), (SpecVersion1_2, ["container", "firmware"]), (SpecVersion1_5, ["data", "device-driver", "machine-learning-model", "platform"]), (SpecVersion1_6, ["cryptographic-asset"])])]
  | .externalReference => [("type", [(SpecVersion1_0, ["advisories", "bom", "build-meta", "build-system", "chat", "distribution", "documentation", "issue-tracker", "license", "mailing-list", "other", "social", "support", "vcs", "website"]), (SpecVersion1_4, ["release-notes"]), (SpecVersion1_5, ["adversary-model", "attestation", "certification-report", "codified-infrastructure", "component-analysis-report", "configuration", "distribution-intake", "dynamic-analysis-report", "evidence", "exploitability-statement", "formulation", "log", "maturity-report", "model-card", "pentest-report", "poam", "quality-metrics", "risk-assessment", "runtime-analysis-report", "security-contact", "static-analysis-report", "threat-model", "vulnerability-assertion"]), (SpecVersion1_6, ["digital-signature", "electronic-signature", "rfc-9116", "source-distribution"]), (SpecVersion1_7, ["citation", "patent", "patent-assertion", "patent-family"])])]
  | .license => [("acknowledgement", [(SpecVersion1_0, ["concluded", "declared"])])]
  | .licenseExpression => [("acknowledgement", [(SpecVersion1_0, ["concluded", "declared"])])]
  | .licenseExpressionDetailed => [("acknowledgement", [(SpecVersion1_0, ["concluded", "declared"])])]
  | .hash => [("alg", [(SpecVersion1_0, ["MD5", "SHA-1", "SHA-256", "SHA-384", "SHA-512", "SHA3-256", "SHA3-512"]), (SpecVersion1_2, ["BLAKE2b-256", "BLAKE2b-384", "BLAKE2b-512", "BLAKE3", "SHA3-384"]), (SpecVersion1_7, ["Streebog-256", "Streebog-512"])])]
  | .attachedText => [("encoding", [(SpecVersion1_0, ["base64"])])]
  | .dataClassification => [("flow", [(SpecVersion1_0, ["bi-directional", "inbound", "outbound", "unknown"])])]
  | .patch => [("type", [(SpecVersion1_0, ["backport", "cherry-pick", "monkey", "unofficial"])])]
  | .issue => [("type", [(SpecVersion1_0, ["defect", "enhancement", "security"])])]
  | _ => []

/-- The enumerations of elements, by their names. -/
def XPlace.enumElems : XPlace → List (String × List (Int × List String))
  | .component => [("scope", [(SpecVersion1_0, ["optional", "required"]), (SpecVersion1_1, ["excluded"])])]
  | .distributionConstraints => [("tlp", [(SpecVersion1_0, ["AMBER", "AMBER_AND_STRICT", "CLEAR", "GREEN", "RED"])])]
  | .composition => [("aggregate", [(SpecVersion1_0, ["complete", "incomplete", "incomplete_first_party_only", "incomplete_third_party_only", "not_specified", "unknown"]), (SpecVersion1_5, ["incomplete_first_party_opensource_only", "incomplete_first_party_proprietary_only", "incomplete_third_party_opensource_only", "incomplete_third_party_proprietary_only"])])]
  | .lifecyclesLifecycle => [("phase", [(SpecVersion1_0, ["build", "decommission", "design", "discovery", "operations", "post-build", "pre-build"])])]
  | .componentData => [("type", [(SpecVersion1_0, ["configuration", "dataset", "definition", "other", "source-code"])])]
  | .cryptoProperties => [("assetType", [(SpecVersion1_0, ["algorithm", "certificate", "protocol", "related-crypto-material"])])]
  | .analysis => [("state", [(SpecVersion1_0, ["exploitable", "false_positive", "in_triage", "not_affected", "resolved", "resolved_with_pedigree"])]),
      ("justification", [(SpecVersion1_0, ["code_not_present", "code_not_reachable", "protected_at_perimeter", "protected_at_runtime", "protected_by_compiler", "protected_by_mitigating_control", "requires_configuration", "requires_dependency", "requires_environment"])])]
  | .patent => [("patentLegalStatus", [(SpecVersion1_0, ["abandoned", "expired", "granted", "in-force", "invalidated", "lapsed", "opposed", "pending", "reinstated", "revoked", "suspended", "terminated", "withdrawn"])])]
  | .patentAssertion => [("assertionType", [(SpecVersion1_0, ["exclusive-rights", "license", "non-assertion", "ownership", "prior-art", "research-or-evaluation", "standards-inclusion", "third-party-claim"])])]
  | .identity => [("field", [(SpecVersion1_0, ["cpe", "group", "hash", "name", "purl", "swid", "version"]), (SpecVersion1_6, ["omniborId", "swhid"])])]
  | .algorithmProperties => [("primitive", [(SpecVersion1_0, ["ae", "block-cipher", "combiner", "drbg", "hash", "kdf", "kem", "key-agree", "mac", "other", "pke", "signature", "stream-cipher", "unknown", "xof"]), (SpecVersion1_7, ["key-wrap"])]),
      ("executionEnvironment", [(SpecVersion1_0, ["hardware", "other", "software-encrypted-ram", "software-plain-ram", "software-tee", "unknown"])]),
      ("implementationPlatform", [(SpecVersion1_0, ["armv7-a", "armv7-m", "armv8-a", "armv8-m", "armv9-a", "armv9-m", "generic", "other", "ppc64", "ppc64le", "s390x", "unknown", "x86_32", "x86_64"])]),
      ("certificationLevel", [(SpecVersion1_0, ["cc-eal1", "cc-eal1+", "cc-eal2", "cc-eal2+", "cc-eal3", "cc-eal3+", "cc-eal4", "cc-eal4+", "cc-eal5", "cc-eal5+", "cc-eal6", "cc-eal6+", "cc-eal7", "cc-eal7+", "fips140-1-l1", "fips140-1-l2", "fips140-1-l3", "fips140-1-l4", "fips140-2-l1", "fips140-2-l2", "fips140-2-l3", "fips140-2-l4", "fips140-3-l1", "fips140-3-l2", "fips140-3-l3", "fips140-3-l4", "none", "other", "unknown"])]),
      ("mode", [(SpecVersion1_0, ["cbc", "ccm", "cfb", "ctr", "ecb", "gcm", "ofb", "other", "unknown"])]),
      ("padding", [(SpecVersion1_0, ["oaep", "other", "pkcs1v15", "pkcs5", "pkcs7", "raw", "unknown"])])]
  | .relatedCryptoMaterialProperties => [("type", [(SpecVersion1_0, ["additional-data", "ciphertext", "credential", "digest", "initialization-vector", "key", "nonce", "other", "password", "private-key", "public-key", "salt", "secret-key", "seed", "shared-secret", "signature", "tag", "token", "unknown"])]),
      ("state", [(SpecVersion1_0, ["active", "compromised", "deactivated", "destroyed", "pre-activation", "suspended"])])]
  | .protocolProperties => [("type", [(SpecVersion1_0, ["ike", "ipsec", "other", "ssh", "sstp", "tls", "unknown", "wpa"]), (SpecVersion1_7, ["5g-aka", "dtls", "eap-aka", "eap-aka-prime", "prins", "quic"])])]
  | .rating => [("severity", [(SpecVersion1_0, ["critical", "high", "info", "low", "medium", "none", "unknown"])]),
      ("method", [(SpecVersion1_0, ["CVSSv2", "CVSSv3", "CVSSv31", "OWASP", "other"]), (SpecVersion1_5, ["CVSSv4", "SSVC"])])]
  | .analysisResponses => [("response", [(SpecVersion1_0, ["can_not_fix", "rollback", "update", "will_not_fix", "workaround_available"])])]
  | .approach => [("type", [(SpecVersion1_0, ["reinforcement-learning", "self-supervised", "semi-supervised", "supervised", "unsupervised"])])]
  | .algorithmPropertiesCryptoFunctions => [("cryptoFunction", [(SpecVersion1_0, ["decapsulate", "decrypt", "digest", "encapsulate", "encrypt", "generate", "keyderive", "keygen", "other", "sign", "tag", "unknown", "verify"])])]
  | .certificateState => [("state", [(SpecVersion1_0, ["active", "deactivated", "destroyed", "pre-activation", "revoked", "suspended"])])]
  | .licenseTypes => [("licenseType", [(SpecVersion1_0, ["academic", "appliance", "client-access", "concurrent-user", "core-points", "custom-metric", "device", "evaluation", "named-user", "node-locked", "oem", "other", "perpetual", "processor-points", "subscription", "user"])])]
  | .trigger => [("type", [(SpecVersion1_0, ["api", "manual", "scheduled", "webhook"])])]
  | .methodsMethod => [("technique", [(SpecVersion1_0, ["ast-fingerprint", "attestation", "binary-analysis", "dynamic-analysis", "filename", "hash-comparison", "instrumentation", "manifest-analysis", "other", "source-code-analysis"])])]
  | .certificateExtension => [("commonExtensionName", [(SpecVersion1_0, ["authorityInformationAccess", "authorityKeyIdentifier", "basicConstraints", "certificatePolicies", "crlDistributionPoints", "extendedKeyUsage", "keyUsage", "signedCertificateTimestamp", "subjectAlternativeName", "subjectKeyIdentifier"])])]
  | .targetVersionsVersion => [("status", [(SpecVersion1_0, ["affected", "unaffected", "unknown"])])]
  | .output => [("type", [(SpecVersion1_0, ["artifact", "attestation", "evidence", "log", "metrics", "other"])])]
  | .workspace => [("accessMode", [(SpecVersion1_0, ["read-only", "read-write", "read-write-once", "write-once", "write-only"])])]
  | .energyConsumption => [("activity", [(SpecVersion1_0, ["data-collection", "data-preparation", "deployment", "design", "fine-tuning", "inference", "other", "training", "validation"])])]
  | .taskTypeTaskTypes => [("taskType", [(SpecVersion1_0, ["build", "clean", "clone", "copy", "deliver", "deploy", "lint", "merge", "other", "release", "scan", "test"])])]
  | .volume => [("mode", [(SpecVersion1_0, ["block", "filesystem"])])]
  | .energyProvider => [("energySource", [(SpecVersion1_0, ["biofuel", "coal", "geothermal", "hydropower", "natural-gas", "nuclear", "oil", "other", "solar", "unknown", "wind"])])]
  | .co2Measure => [("unit", [(SpecVersion1_0, ["kWh", "tCO2eq"])])]
  | _ => []

/-- The schema of version `v` allows the string `s` in the attribute `a` of an element at the place. -/
def XPlace.ListsAttr (v : Int) (p : XPlace) (a : String) (s : String) : Prop :=
  ∀ gs, p.enumAttrs.lookup a = some gs → ∃ g ∈ gs, g.1 ≤ v ∧ s ∈ g.2

/-- The schema of version `v` allows the string `s` as the text of the element `m` in an element at the place. -/
def XPlace.ListsElem (v : Int) (p : XPlace) (m : String) (s : String) : Prop :=
  ∀ gs, p.enumElems.lookup m = some gs → ∃ g ∈ gs, g.1 ≤ v ∧ s ∈ g.2

/-- Every text in the element, which is at this place, is enumerated where the schema enumerates texts. -/
inductive XListed (v : Int) : XPlace → Xml → Prop
  | mk {p : XPlace} {name : String} {as : List (String × String)} {ks : List Xml}
      (ha : ∀ a ∈ as, p.ListsAttr v a.1 a.2) (hk : ∀ m bs ls, Xml.elem m bs ls ∈ ks → p.ListsElem v m (textOf ls))
      (hn : ∀ m bs ls q, Xml.elem m bs ls ∈ ks → (m, q) ∈ p.content.els → XListed v q (.elem m bs ls)) :
      XListed v p (.elem name as ks)

/-- Every text in the document is one that the schema of version `v` enumerates at its place. -/
def XmlDoc.Listed (v : Int) (doc : XmlDoc) : Prop := XListed v .bom doc.root

/-- cyclonedx.go:40-44 -/
def AffectedVersions.XListed (v : Int) (x : AffectedVersions) : Prop :=
  XPlace.ListsElem v .targetVersionsVersion "status" x.status

/-- cyclonedx.go:46-49 -/
def Affects.XListed (v : Int) (x : Affects) : Prop :=
  (∀ y ∈ x.range.elems, AffectedVersions.XListed v y)

/-- cyclonedx.go:73-77 -/
def AttachedText.XListed (v : Int) (x : AttachedText) : Prop :=
  (x.encoding ≠ "" → XPlace.ListsAttr v .attachedText "encoding" x.encoding)

/-- cyclonedx.go:290-294 -/
def ComponentDataContents.XListed (v : Int) (x : ComponentDataContents) : Prop :=
  (∀ y ∈ x.attachment, AttachedText.XListed v y)

/-- cyclonedx.go:301-304 -/
def ComponentDataGraphic.XListed (v : Int) (x : ComponentDataGraphic) : Prop :=
  (∀ y ∈ x.image, AttachedText.XListed v y)

/-- cyclonedx.go:306-309 -/
def ComponentDataGraphics.XListed (v : Int) (x : ComponentDataGraphics) : Prop :=
  (∀ y ∈ x.collection.elems, ComponentDataGraphic.XListed v y)

/-- cyclonedx.go:278-288 -/
def ComponentData.XListed (v : Int) (x : ComponentData) : Prop :=
  (x.type ≠ "" → XPlace.ListsElem v .componentData "type" x.type) ∧
  (∀ y ∈ x.contents, ComponentDataContents.XListed v y) ∧
  (∀ y ∈ x.graphics, ComponentDataGraphics.XListed v y)

/-- cyclonedx.go:808-811 -/
def Hash.XListed (v : Int) (x : Hash) : Prop :=
  XPlace.ListsAttr v .hash "alg" x.algorithm

/-- cyclonedx.go:1874-1877; the name of a predefined state. -/
def CertificateState.XListed (v : Int) (x : CertificateState) : Prop :=
  ∀ y ∈ x.predefined, XPlace.ListsElem v .certificateState "state" y.state

/-- cyclonedx.go:1907-1910; the name of a common extension. -/
def CertificateExtension.XListed (v : Int) (x : CertificateExtension) : Prop :=
  ∀ y ∈ x.common, XPlace.ListsElem v .certificateExtension "commonExtensionName" y.name

/-- cyclonedx.go:171-191 -/
def CertificateProperties.XListed (v : Int) (x : CertificateProperties) : Prop :=
  (∀ y ∈ x.fingerprint, Hash.XListed v y) ∧
  (∀ y ∈ x.certificateState.elems, CertificateState.XListed v y) ∧
  (∀ y ∈ x.certificateExtensions.elems, CertificateExtension.XListed v y)

/-- cyclonedx.go:368-382 -/
def CryptoAlgorithmProperties.XListed (v : Int) (x : CryptoAlgorithmProperties) : Prop :=
  (x.primitive ≠ "" → XPlace.ListsElem v .algorithmProperties "primitive" x.primitive) ∧
  (x.executionEnvironment ≠ "" → XPlace.ListsElem v .algorithmProperties "executionEnvironment" x.executionEnvironment) ∧
  (x.implementationPlatform ≠ "" → XPlace.ListsElem v .algorithmProperties "implementationPlatform" x.implementationPlatform) ∧
  (∀ y ∈ x.certificationLevel.elems, y ≠ "" → XPlace.ListsElem v .algorithmProperties "certificationLevel" y) ∧
  (x.mode ≠ "" → XPlace.ListsElem v .algorithmProperties "mode" x.mode) ∧
  (x.padding ≠ "" → XPlace.ListsElem v .algorithmProperties "padding" x.padding) ∧
  (∀ y ∈ x.cryptoFunctions.elems, y ≠ "" → XPlace.ListsElem v .algorithmPropertiesCryptoFunctions "cryptoFunction" y)

/-- cyclonedx.go:509-516 -/
def CryptoProtocolProperties.XListed (v : Int) (x : CryptoProtocolProperties) : Prop :=
  (x.type ≠ "" → XPlace.ListsElem v .protocolProperties "type" x.type)

/-- cyclonedx.go:1282-1297 -/
def RelatedCryptoMaterialProperties.XListed (v : Int) (x : RelatedCryptoMaterialProperties) : Prop :=
  (x.type ≠ "" → XPlace.ListsElem v .relatedCryptoMaterialProperties "type" x.type) ∧
  (x.state ≠ "" → XPlace.ListsElem v .relatedCryptoMaterialProperties "state" x.state) ∧
  (∀ y ∈ x.fingerprint, Hash.XListed v y)

/-- cyclonedx.go:500-507 -/
def CryptoProperties.XListed (v : Int) (x : CryptoProperties) : Prop :=
  XPlace.ListsElem v .cryptoProperties "assetType" x.assetType ∧
  (∀ y ∈ x.algorithmProperties, CryptoAlgorithmProperties.XListed v y) ∧
  (∀ y ∈ x.certificateProperties, CertificateProperties.XListed v y) ∧
  (∀ y ∈ x.relatedCryptoMaterialProperties, RelatedCryptoMaterialProperties.XListed v y) ∧
  (∀ y ∈ x.protocolProperties, CryptoProtocolProperties.XListed v y)

/-- cyclonedx.go:710-714 -/
def EvidenceIdentityMethod.XListed (v : Int) (x : EvidenceIdentityMethod) : Prop :=
  (x.technique ≠ "" → XPlace.ListsElem v .methodsMethod "technique" x.technique)

/-- cyclonedx.go:688-694 -/
def EvidenceIdentity.XListed (v : Int) (x : EvidenceIdentity) : Prop :=
  (x.field ≠ "" → XPlace.ListsElem v .identity "field" x.field) ∧
  (∀ y ∈ x.methods.elems, EvidenceIdentityMethod.XListed v y)

/-- cyclonedx.go:683-686; several identities hide the single one. -/
def EvidenceIdentityChoice.XListed (v : Int) (x : EvidenceIdentityChoice) : Prop :=
  (∀ y ∈ x.identities.elems, EvidenceIdentity.XListed v y) ∧ (x.identities = .nil → ∀ y ∈ x.identity, EvidenceIdentity.XListed v y)

/-- cyclonedx.go:995-1004 -/
def Licensing.XListed (v : Int) (x : Licensing) : Prop :=
  (∀ y ∈ x.licenseTypes.elems, y ≠ "" → XPlace.ListsElem v .licenseTypes "licenseType" y)

/-- cyclonedx.go:936-945 -/
def License.XListed (v : Int) (x : License) : Prop :=
  (x.acknowledgement ≠ "" → XPlace.ListsAttr v .license "acknowledgement" x.acknowledgement) ∧
  (∀ y ∈ x.text, AttachedText.XListed v y) ∧
  (∀ y ∈ x.licensing, Licensing.XListed v y)

/-- cyclonedx.go:967-972; the text. -/
def LicenseExpressionDetail.XListed (v : Int) (x : LicenseExpressionDetail) : Prop :=
  ∀ y ∈ x.text, AttachedText.XListed v y

/-- cyclonedx.go:956-964; a license, or an expression with or without details. -/
def LicenseChoice.XListed (v : Int) (x : LicenseChoice) : Prop :=
  (∀ y ∈ x.license, License.XListed v y) ∧
  (x.license = none → x.expression ≠ "" →
    (∀ y ∈ x.acknowledgement, y ≠ "" → XPlace.ListsAttr v .licenseExpression "acknowledgement" y) ∧
    ∀ y ∈ x.expressionDetails.elems, LicenseExpressionDetail.XListed v y)

/-- cyclonedx.go:672-678; the identities and the licenses. -/
def Evidence.XListed (v : Int) (x : Evidence) : Prop :=
  (∀ y ∈ x.identity, EvidenceIdentityChoice.XListed v y) ∧ ∀ y ∈ x.licenses.elems, LicenseChoice.XListed v y

/-- cyclonedx.go:740-746 -/
def ExternalReference.XListed (v : Int) (x : ExternalReference) : Prop :=
  (∀ y ∈ x.hashes.elems, Hash.XListed v y) ∧
  XPlace.ListsAttr v .externalReference "type" x.type

/-- cyclonedx.go:1099-1102 -/
def MLModelCO2Measure.XListed (v : Int) (x : MLModelCO2Measure) : Prop :=
  XPlace.ListsElem v .co2Measure "unit" x.unit

/-- cyclonedx.go:1131-1134 -/
def MLModelEnergyMeasure.XListed (v : Int) (x : MLModelEnergyMeasure) : Prop :=
  XPlace.ListsElem v .co2Measure "unit" x.unit

/-- cyclonedx.go:1136-1143 -/
def MLModelEnergyProvider.XListed (v : Int) (x : MLModelEnergyProvider) : Prop :=
  XPlace.ListsElem v .energyProvider "energySource" x.energySource ∧
  (∀ y ∈ x.energyProvided, MLModelEnergyMeasure.XListed v y) ∧
  (∀ y ∈ x.externalReferences.elems, ExternalReference.XListed v y)

/-- cyclonedx.go:1108-1115 -/
def MLModelEnergyConsumption.XListed (v : Int) (x : MLModelEnergyConsumption) : Prop :=
  XPlace.ListsElem v .energyConsumption "activity" x.activity ∧
  (∀ y ∈ x.energyProviders.elems, MLModelEnergyProvider.XListed v y) ∧
  MLModelEnergyMeasure.XListed v x.activityEnergyCost ∧
  (∀ y ∈ x.co2CostEquivalent, MLModelCO2Measure.XListed v y) ∧
  (∀ y ∈ x.co2CostOffset, MLModelCO2Measure.XListed v y)

/-- cyclonedx.go:1082-1085 -/
def MLModelCardEnvironmentalConsiderations.XListed (v : Int) (x : MLModelCardEnvironmentalConsiderations) : Prop :=
  (∀ y ∈ x.energyConsumptions.elems, MLModelEnergyConsumption.XListed v y)

/-- cyclonedx.go:1072-1080 -/
def MLModelCardConsiderations.XListed (v : Int) (x : MLModelCardConsiderations) : Prop :=
  (∀ y ∈ x.environmentalConsiderations, MLModelCardEnvironmentalConsiderations.XListed v y)

/-- cyclonedx.go:1056-1059; the reference hides the data. -/
def MLDatasetChoice.XListed (v : Int) (x : MLDatasetChoice) : Prop :=
  x.ref = "" → ∀ y ∈ x.componentData, ComponentData.XListed v y

/-- cyclonedx.go:1175-1177 -/
def MLModelParametersApproach.XListed (v : Int) (x : MLModelParametersApproach) : Prop :=
  (x.type ≠ "" → XPlace.ListsElem v .approach "type" x.type)

/-- cyclonedx.go:1165-1173 -/
def MLModelParameters.XListed (v : Int) (x : MLModelParameters) : Prop :=
  (∀ y ∈ x.approach, MLModelParametersApproach.XListed v y) ∧
  (∀ y ∈ x.datasets.elems, MLDatasetChoice.XListed v y)

/-- cyclonedx.go:1189-1192 -/
def MLQuantitativeAnalysis.XListed (v : Int) (x : MLQuantitativeAnalysis) : Prop :=
  (∀ y ∈ x.graphics, ComponentDataGraphics.XListed v y)

/-- cyclonedx.go:1065-1070 -/
def MLModelCard.XListed (v : Int) (x : MLModelCard) : Prop :=
  (∀ y ∈ x.modelParameters, MLModelParameters.XListed v y) ∧
  (∀ y ∈ x.quantitativeAnalysis, MLQuantitativeAnalysis.XListed v y) ∧
  (∀ y ∈ x.considerations, MLModelCardConsiderations.XListed v y)

/-- cyclonedx.go:650-653 -/
def Diff.XListed (v : Int) (x : Diff) : Prop :=
  (∀ y ∈ x.text, AttachedText.XListed v y)

/-- cyclonedx.go:892-899 -/
def Issue.XListed (v : Int) (x : Issue) : Prop :=
  XPlace.ListsAttr v .issue "type" x.type

/-- cyclonedx.go:1237-1241 -/
def Patch.XListed (v : Int) (x : Patch) : Prop :=
  (∀ y ∈ x.diff, Diff.XListed v y) ∧
  (∀ y ∈ x.resolves.elems, Issue.XListed v y) ∧
  XPlace.ListsAttr v .patch "type" x.type

/-- cyclonedx.go:1206-1209 -/
def Note.XListed (v : Int) (x : Note) : Prop :=
  AttachedText.XListed v x.text

/-- cyclonedx.go:1323-1335 -/
def ReleaseNotes.XListed (v : Int) (x : ReleaseNotes) : Prop :=
  (∀ y ∈ x.resolves.elems, Issue.XListed v y) ∧
  (∀ y ∈ x.notes.elems, Note.XListed v y)

/-- cyclonedx.go:1449-1457 -/
def SWID.XListed (v : Int) (x : SWID) : Prop :=
  (∀ y ∈ x.text, AttachedText.XListed v y)

/-- cyclonedx.go:1779-1785 -/
def PatentAssertion.XListed (v : Int) (x : PatentAssertion) : Prop :=
  XPlace.ListsElem v .patentAssertion "assertionType" x.assertionType

mutual
/-- cyclonedx.go:239-276 -/
def Component.XListed (v : Int) : Component → Prop
  | .mk _ _ type _ _ _ _ _ _ _ _ _ scope hashes licenses _ _ _ _ _ swid _ pedigree externalReferences _ components evidence releaseNotes modelCard data cryptoProperties _ _ patentAssertions _ _ =>
    XPlace.ListsAttr v .component "type" type ∧
    (scope ≠ "" → XPlace.ListsElem v .component "scope" scope) ∧
    (∀ y ∈ hashes.elems, Hash.XListed v y) ∧
    (∀ y ∈ licenses.elems, LicenseChoice.XListed v y) ∧
    (∀ y ∈ swid, SWID.XListed v y) ∧
    XListedPedigreeOpt v pedigree ∧
    (∀ y ∈ externalReferences.elems, ExternalReference.XListed v y) ∧
    XListedComponents v components ∧
    (∀ y ∈ evidence, Evidence.XListed v y) ∧
    (∀ y ∈ releaseNotes, ReleaseNotes.XListed v y) ∧
    (∀ y ∈ modelCard, MLModelCard.XListed v y) ∧
    (∀ y ∈ data.elems, ComponentData.XListed v y) ∧
    (∀ y ∈ cryptoProperties, CryptoProperties.XListed v y) ∧
    (∀ y ∈ patentAssertions.elems, PatentAssertion.XListed v y)
/-- A list of components, at any depth. -/
def XListedComponents (v : Int) : PSlice Component → Prop
  | .nil => True
  | .nilSlice => True
  | .list xs => XListedComponentList v xs
/-- A list of components, at any depth. -/
def XListedComponentList (v : Int) : List Component → Prop
  | [] => True
  | c :: cs => c.XListed v ∧ XListedComponentList v cs
/-- An optional pedigree. -/
def XListedPedigreeOpt (v : Int) : Option (Pedigree Component) → Prop
  | none => True
  | some p => XListedPedigree v p
/-- cyclonedx.go:1252-1259 -/
def XListedPedigree (v : Int) : Pedigree Component → Prop
  | .mk ancestors descendants variants _ patches _ =>
    XListedComponents v ancestors ∧
    XListedComponents v descendants ∧
    XListedComponents v variants ∧
    (∀ y ∈ patches.elems, Patch.XListed v y)
end

/-- cyclonedx.go:551-559; the direction. -/
def DataClassification.XListed (v : Int) (x : DataClassification) : Prop :=
  x.flow ≠ "" → XPlace.ListsAttr v .dataClassification "flow" x.flow

mutual
/-- cyclonedx.go:1362-1382 -/
def Service.XListed (v : Int) : Service → Prop
  | .mk _ _ _ _ _ _ _ _ _ data licenses externalReferences _ services releaseNotes _ _ patentAssertions _ =>
    (∀ y ∈ data.elems, DataClassification.XListed v y) ∧
    (∀ y ∈ licenses.elems, LicenseChoice.XListed v y) ∧
    (∀ y ∈ externalReferences.elems, ExternalReference.XListed v y) ∧
    XListedServices v services ∧
    (∀ y ∈ releaseNotes, ReleaseNotes.XListed v y) ∧
    (∀ y ∈ patentAssertions.elems, PatentAssertion.XListed v y)
/-- A list of services, at any depth. -/
def XListedServices (v : Int) : PSlice Service → Prop
  | .nil => True
  | .nilSlice => True
  | .list xs => XListedServiceList v xs
/-- A list of services, at any depth. -/
def XListedServiceList (v : Int) : List Service → Prop
  | [] => True
  | c :: cs => c.XListed v ∧ XListedServiceList v cs
end

/-- cyclonedx.go:60-65 -/
def Annotator.XListed (v : Int) (x : Annotator) : Prop :=
  (∀ y ∈ x.component, Component.XListed v y) ∧
  (∀ y ∈ x.service, Service.XListed v y)

/-- cyclonedx.go:51-58 -/
def Annotation.XListed (v : Int) (x : Annotation) : Prop :=
  (∀ y ∈ x.annotator, Annotator.XListed v y)

/-- cyclonedx.go:321-328 -/
def Composition.XListed (v : Int) (x : Composition) : Prop :=
  XPlace.ListsElem v .composition "aggregate" x.aggregate

/-- cyclonedx.go:193-203 -/
def Claim.XListed (v : Int) (x : Claim) : Prop :=
  (∀ y ∈ x.externalReferences.elems, ExternalReference.XListed v y)

/-- cyclonedx.go:619-622 -/
def EvidenceDataContents.XListed (v : Int) (x : EvidenceDataContents) : Prop :=
  (∀ y ∈ x.attachment, AttachedText.XListed v y)

/-- cyclonedx.go:611-617 -/
def EvidenceData.XListed (v : Int) (x : EvidenceData) : Prop :=
  (∀ y ∈ x.contents, EvidenceDataContents.XListed v y)

/-- cyclonedx.go:586-596 -/
def DeclarationEvidence.XListed (v : Int) (x : DeclarationEvidence) : Prop :=
  (∀ y ∈ x.data.elems, EvidenceData.XListed v y)

/-- cyclonedx.go:624-628 -/
def Targets.XListed (v : Int) (x : Targets) : Prop :=
  (∀ y ∈ x.components.elems, Component.XListed v y) ∧
  (∀ y ∈ x.services.elems, Service.XListed v y)

/-- cyclonedx.go:636-642 -/
def Signatory.XListed (v : Int) (x : Signatory) : Prop :=
  (∀ y ∈ x.externalReference, ExternalReference.XListed v y)

/-- cyclonedx.go:630-634 -/
def Affirmation.XListed (v : Int) (x : Affirmation) : Prop :=
  (∀ y ∈ x.signatories.elems, Signatory.XListed v y)

/-- cyclonedx.go:576-584 -/
def Declarations.XListed (v : Int) (x : Declarations) : Prop :=
  (∀ y ∈ x.claims.elems, Claim.XListed v y) ∧
  (∀ y ∈ x.evidence.elems, DeclarationEvidence.XListed v y) ∧
  (∀ y ∈ x.targets, Targets.XListed v y) ∧
  (∀ y ∈ x.affirmation, Affirmation.XListed v y)

/-- cyclonedx.go:1743-1758 -/
def Patent.XListed (v : Int) (x : Patent) : Prop :=
  XPlace.ListsElem v .patent "patentLegalStatus" x.patentLegalStatus ∧
  (∀ y ∈ x.externalReferences.elems, ExternalReference.XListed v y)

/-- cyclonedx.go:1761-1767 -/
def PatentFamily.XListed (v : Int) (x : PatentFamily) : Prop :=
  (∀ y ∈ x.externalReferences.elems, ExternalReference.XListed v y)

/-- cyclonedx.go:606-609; a patent hides the family. -/
def PatentChoice.XListed (v : Int) (x : PatentChoice) : Prop :=
  (∀ y ∈ x.patent, Patent.XListed v y) ∧ (x.patent = none → ∀ y ∈ x.patentFamily, PatentFamily.XListed v y)

/-- cyclonedx.go:1429-1439 -/
def StandardRequirement.XListed (v : Int) (x : StandardRequirement) : Prop :=
  (∀ y ∈ x.externalReferences.elems, ExternalReference.XListed v y)

/-- cyclonedx.go:1416-1427 -/
def StandardDefinition.XListed (v : Int) (x : StandardDefinition) : Prop :=
  (∀ y ∈ x.requirements.elems, StandardRequirement.XListed v y) ∧
  (∀ y ∈ x.externalReferences.elems, ExternalReference.XListed v y)

/-- cyclonedx.go:598-601; the standards and the patents. -/
def Definitions.XListed (v : Int) (x : Definitions) : Prop :=
  (∀ y ∈ x.standards.elems, StandardDefinition.XListed v y) ∧ ∀ y ∈ x.patents.elems, PatentChoice.XListed v y

/-- cyclonedx.go:1337-1340 -/
def ResourceReferenceChoice.XListed (v : Int) (x : ResourceReferenceChoice) : Prop :=
  (∀ y ∈ x.externalReference, ExternalReference.XListed v y)

/-- cyclonedx.go:1482-1490 -/
def TaskInput.XListed (v : Int) (x : TaskInput) : Prop :=
  (∀ y ∈ x.resource, ResourceReferenceChoice.XListed v y) ∧
  (∀ y ∈ x.data, AttachedText.XListed v y) ∧
  (∀ y ∈ x.source, ResourceReferenceChoice.XListed v y) ∧
  (∀ y ∈ x.target, ResourceReferenceChoice.XListed v y)

/-- cyclonedx.go:1492-1501 -/
def TaskOutput.XListed (v : Int) (x : TaskOutput) : Prop :=
  (∀ y ∈ x.resource, ResourceReferenceChoice.XListed v y) ∧
  (∀ y ∈ x.data, AttachedText.XListed v y) ∧
  (x.type ≠ "" → XPlace.ListsElem v .output "type" x.type) ∧
  (∀ y ∈ x.source, ResourceReferenceChoice.XListed v y) ∧
  (∀ y ∈ x.target, ResourceReferenceChoice.XListed v y)

/-- cyclonedx.go:662-670 -/
def Event.XListed (v : Int) (x : Event) : Prop :=
  (∀ y ∈ x.data, AttachedText.XListed v y) ∧
  (∀ y ∈ x.source, ResourceReferenceChoice.XListed v y) ∧
  (∀ y ∈ x.target, ResourceReferenceChoice.XListed v y)

/-- cyclonedx.go:1521-1534 -/
def TaskTrigger.XListed (v : Int) (x : TaskTrigger) : Prop :=
  (∀ y ∈ x.resourceReferences.elems, ResourceReferenceChoice.XListed v y) ∧
  (x.type ≠ "" → XPlace.ListsElem v .trigger "type" x.type) ∧
  (∀ y ∈ x.event, Event.XListed v y) ∧
  (∀ y ∈ x.inputs.elems, TaskInput.XListed v y) ∧
  (∀ y ∈ x.outputs.elems, TaskOutput.XListed v y)

/-- cyclonedx.go:1616-1625 -/
def Volume.XListed (v : Int) (x : Volume) : Prop :=
  (x.mode ≠ "" → XPlace.ListsElem v .volume "mode" x.mode)

/-- cyclonedx.go:1568-1581 -/
def TaskWorkspace.XListed (v : Int) (x : TaskWorkspace) : Prop :=
  (∀ y ∈ x.resourceReferences.elems, ResourceReferenceChoice.XListed v y) ∧
  (x.accessMode ≠ "" → XPlace.ListsElem v .workspace "accessMode" x.accessMode) ∧
  (∀ y ∈ x.volume, Volume.XListed v y)

/-- cyclonedx.go:1459-1475 -/
def Task.XListed (v : Int) (x : Task) : Prop :=
  (∀ y ∈ x.resourceReferences.elems, ResourceReferenceChoice.XListed v y) ∧
  (∀ y ∈ x.taskTypes.elems, y ≠ "" → XPlace.ListsElem v .taskTypeTaskTypes "taskType" y) ∧
  (∀ y ∈ x.trigger, TaskTrigger.XListed v y) ∧
  (∀ y ∈ x.inputs.elems, TaskInput.XListed v y) ∧
  (∀ y ∈ x.outputs.elems, TaskOutput.XListed v y) ∧
  (∀ y ∈ x.workspaces.elems, TaskWorkspace.XListed v y)

/-- cyclonedx.go:1689-1707 -/
def Workflow.XListed (v : Int) (x : Workflow) : Prop :=
  (∀ y ∈ x.resourceReferences.elems, ResourceReferenceChoice.XListed v y) ∧
  (∀ y ∈ x.tasks.elems, Task.XListed v y) ∧
  (∀ y ∈ x.taskTypes.elems, y ≠ "" → XPlace.ListsElem v .taskTypeTaskTypes "taskType" y) ∧
  (∀ y ∈ x.trigger, TaskTrigger.XListed v y) ∧
  (∀ y ∈ x.inputs.elems, TaskInput.XListed v y) ∧
  (∀ y ∈ x.outputs.elems, TaskOutput.XListed v y) ∧
  (∀ y ∈ x.workspaces.elems, TaskWorkspace.XListed v y)

/-- cyclonedx.go:800-806 -/
def Formula.XListed (v : Int) (x : Formula) : Prop :=
  (∀ y ∈ x.components.elems, Component.XListed v y) ∧
  (∀ y ∈ x.services.elems, Service.XListed v y) ∧
  (∀ y ∈ x.workflows.elems, Workflow.XListed v y)

/-- cyclonedx.go:1006-1010 -/
def Lifecycle.XListed (v : Int) (x : Lifecycle) : Prop :=
  (x.phase ≠ "" → XPlace.ListsElem v .lifecyclesLifecycle "phase" x.phase)

/-- cyclonedx.go:1594-1600 -/
def Tool.XListed (v : Int) (x : Tool) : Prop :=
  (∀ y ∈ x.hashes.elems, Hash.XListed v y) ∧
  (∀ y ∈ x.externalReferences.elems, ExternalReference.XListed v y)

/-- cyclonedx.go:1610-1614; the tools, or the components and services. -/
def ToolsChoice.XListed (v : Int) (x : ToolsChoice) : Prop :=
  (∀ y ∈ x.tools.elems, Tool.XListed v y) ∧ (∀ y ∈ x.components.elems, Component.XListed v y) ∧ ∀ y ∈ x.services.elems, Service.XListed v y

/-- cyclonedx.go:1809-1811 -/
def DistributionConstraints.XListed (v : Int) (x : DistributionConstraints) : Prop :=
  (x.tlp ≠ "" → XPlace.ListsElem v .distributionConstraints "tlp" x.tlp)

/-- cyclonedx.go:1042-1054 -/
def Metadata.XListed (v : Int) (x : Metadata) : Prop :=
  (∀ y ∈ x.lifecycles.elems, Lifecycle.XListed v y) ∧
  (∀ y ∈ x.tools, ToolsChoice.XListed v y) ∧
  (∀ y ∈ x.component, Component.XListed v y) ∧
  (∀ y ∈ x.licenses.elems, LicenseChoice.XListed v y) ∧
  (∀ y ∈ x.distributionConstraints, DistributionConstraints.XListed v y)

/-- cyclonedx.go:1271-1275 -/
def ProofOfConcept.XListed (v : Int) (x : ProofOfConcept) : Prop :=
  (∀ y ∈ x.supportingMaterial.elems, AttachedText.XListed v y)

/-- cyclonedx.go:1658-1665 -/
def VulnerabilityAnalysis.XListed (v : Int) (x : VulnerabilityAnalysis) : Prop :=
  (x.state ≠ "" → XPlace.ListsElem v .analysis "state" x.state) ∧
  (x.justification ≠ "" → XPlace.ListsElem v .analysis "justification" x.justification) ∧
  (∀ y ∈ x.response.elems, y ≠ "" → XPlace.ListsElem v .analysisResponses "response" y)

/-- cyclonedx.go:1667-1674 -/
def VulnerabilityRating.XListed (v : Int) (x : VulnerabilityRating) : Prop :=
  (x.severity ≠ "" → XPlace.ListsElem v .rating "severity" x.severity) ∧
  (x.method ≠ "" → XPlace.ListsElem v .rating "method" x.method)

/-- cyclonedx.go:1634-1656 -/
def Vulnerability.XListed (v : Int) (x : Vulnerability) : Prop :=
  (∀ y ∈ x.ratings.elems, VulnerabilityRating.XListed v y) ∧
  (∀ y ∈ x.proofOfConcept, ProofOfConcept.XListed v y) ∧
  (∀ y ∈ x.tools, ToolsChoice.XListed v y) ∧
  (∀ y ∈ x.analysis, VulnerabilityAnalysis.XListed v y) ∧
  (∀ y ∈ x.affects.elems, Affects.XListed v y)

/-- cyclonedx.go:105-131 -/
def BOM.XListed (v : Int) (x : BOM) : Prop :=
  (∀ y ∈ x.metadata, Metadata.XListed v y) ∧
  (∀ y ∈ x.components.elems, Component.XListed v y) ∧
  (∀ y ∈ x.services.elems, Service.XListed v y) ∧
  (∀ y ∈ x.externalReferences.elems, ExternalReference.XListed v y) ∧
  (∀ y ∈ x.compositions.elems, Composition.XListed v y) ∧
  (∀ y ∈ x.vulnerabilities.elems, Vulnerability.XListed v y) ∧
  (∀ y ∈ x.annotations.elems, Annotation.XListed v y) ∧
  (∀ y ∈ x.formulation.elems, Formula.XListed v y) ∧
  (∀ y ∈ x.declarations, Declarations.XListed v y) ∧
  (∀ y ∈ x.definitions, Definitions.XListed v y)

end Verif
