import Verif.Model.Version

/-!
# When each enumeration value was introduced, according to the published schemas

GENERATED by `tools/gen_schema.py` from /repo/schema/bom-1.0.xsd ... bom-1.7.xsd (not from the Go code);
do not edit by hand.
-/

namespace Verif.Spec

/-- Version `v` knows the value `s`: the table has an entry for `s` with an introduction version that is
not later than `v`. -/
def Known (table : List (String × Int)) (v : Int) (s : String) : Prop :=
  ∃ k, (s, k) ∈ table ∧ k ≤ v

/-- First appearance of the values of the simple type `classification`. -/
def componentTypeSince : List (String × Int) := [
  ("application", SpecVersion1_0),
  ("framework", SpecVersion1_0),
  ("library", SpecVersion1_0),
  ("operating-system", SpecVersion1_0),
  ("device", SpecVersion1_0),
  ("file", SpecVersion1_1),
  ("container", SpecVersion1_2),
  ("firmware", SpecVersion1_2),
  ("platform", SpecVersion1_5),
  ("device-driver", SpecVersion1_5),
  ("machine-learning-model", SpecVersion1_5),
  ("data", SpecVersion1_5),
  ("cryptographic-asset", SpecVersion1_6)]

/-- First appearance of the values of the simple type `scope`. -/
def scopeSince : List (String × Int) := [
  ("required", SpecVersion1_0),
  ("optional", SpecVersion1_0),
  ("excluded", SpecVersion1_1)]

/-- First appearance of the values of the simple type `hashAlg`. -/
def hashAlgorithmSince : List (String × Int) := [
  ("MD5", SpecVersion1_0),
  ("SHA-1", SpecVersion1_0),
  ("SHA-256", SpecVersion1_0),
  ("SHA-384", SpecVersion1_0),
  ("SHA-512", SpecVersion1_0),
  ("SHA3-256", SpecVersion1_0),
  ("SHA3-512", SpecVersion1_0),
  ("SHA3-384", SpecVersion1_2),
  ("BLAKE2b-256", SpecVersion1_2),
  ("BLAKE2b-384", SpecVersion1_2),
  ("BLAKE2b-512", SpecVersion1_2),
  ("BLAKE3", SpecVersion1_2),
  ("Streebog-256", SpecVersion1_7),
  ("Streebog-512", SpecVersion1_7)]

/-- First appearance of the values of the simple type `externalReferenceType`. -/
def externalReferenceTypeSince : List (String × Int) := [
  ("vcs", SpecVersion1_1),
  ("issue-tracker", SpecVersion1_1),
  ("website", SpecVersion1_1),
  ("advisories", SpecVersion1_1),
  ("bom", SpecVersion1_1),
  ("mailing-list", SpecVersion1_1),
  ("social", SpecVersion1_1),
  ("chat", SpecVersion1_1),
  ("documentation", SpecVersion1_1),
  ("support", SpecVersion1_1),
  ("distribution", SpecVersion1_1),
  ("license", SpecVersion1_1),
  ("build-meta", SpecVersion1_1),
  ("build-system", SpecVersion1_1),
  ("other", SpecVersion1_1),
  ("release-notes", SpecVersion1_4),
  ("distribution-intake", SpecVersion1_5),
  ("security-contact", SpecVersion1_5),
  ("model-card", SpecVersion1_5),
  ("log", SpecVersion1_5),
  ("configuration", SpecVersion1_5),
  ("evidence", SpecVersion1_5),
  ("formulation", SpecVersion1_5),
  ("attestation", SpecVersion1_5),
  ("threat-model", SpecVersion1_5),
  ("adversary-model", SpecVersion1_5),
  ("risk-assessment", SpecVersion1_5),
  ("vulnerability-assertion", SpecVersion1_5),
  ("exploitability-statement", SpecVersion1_5),
  ("pentest-report", SpecVersion1_5),
  ("static-analysis-report", SpecVersion1_5),
  ("dynamic-analysis-report", SpecVersion1_5),
  ("runtime-analysis-report", SpecVersion1_5),
  ("component-analysis-report", SpecVersion1_5),
  ("maturity-report", SpecVersion1_5),
  ("certification-report", SpecVersion1_5),
  ("quality-metrics", SpecVersion1_5),
  ("codified-infrastructure", SpecVersion1_5),
  ("poam", SpecVersion1_5),
  ("source-distribution", SpecVersion1_6),
  ("electronic-signature", SpecVersion1_6),
  ("digital-signature", SpecVersion1_6),
  ("rfc-9116", SpecVersion1_6),
  ("patent", SpecVersion1_7),
  ("patent-family", SpecVersion1_7),
  ("patent-assertion", SpecVersion1_7),
  ("citation", SpecVersion1_7)]

/-- First appearance of the values of the simple type `aggregateType`. -/
def aggregateSince : List (String × Int) := [
  ("complete", SpecVersion1_3),
  ("incomplete", SpecVersion1_3),
  ("incomplete_first_party_only", SpecVersion1_3),
  ("incomplete_third_party_only", SpecVersion1_3),
  ("unknown", SpecVersion1_3),
  ("not_specified", SpecVersion1_3),
  ("incomplete_first_party_proprietary_only", SpecVersion1_5),
  ("incomplete_first_party_opensource_only", SpecVersion1_5),
  ("incomplete_third_party_proprietary_only", SpecVersion1_5),
  ("incomplete_third_party_opensource_only", SpecVersion1_5)]

/-- First appearance of the values of the simple type `scoreSourceType`. -/
def scoringMethodSince : List (String × Int) := [
  ("CVSSv2", SpecVersion1_4),
  ("CVSSv3", SpecVersion1_4),
  ("CVSSv31", SpecVersion1_4),
  ("OWASP", SpecVersion1_4),
  ("other", SpecVersion1_4),
  ("CVSSv4", SpecVersion1_5),
  ("SSVC", SpecVersion1_5)]

/-- First appearance of the values of `cryptoPropertiesType`, algorithmProperties/primitive. -/
def cryptoPrimitiveSince : List (String × Int) := [
  ("drbg", SpecVersion1_6),
  ("mac", SpecVersion1_6),
  ("block-cipher", SpecVersion1_6),
  ("stream-cipher", SpecVersion1_6),
  ("signature", SpecVersion1_6),
  ("hash", SpecVersion1_6),
  ("pke", SpecVersion1_6),
  ("xof", SpecVersion1_6),
  ("kdf", SpecVersion1_6),
  ("key-agree", SpecVersion1_6),
  ("kem", SpecVersion1_6),
  ("ae", SpecVersion1_6),
  ("combiner", SpecVersion1_6),
  ("other", SpecVersion1_6),
  ("unknown", SpecVersion1_6),
  ("key-wrap", SpecVersion1_7)]

/-- First appearance of the values of `cryptoPropertiesType`, protocolProperties/type. -/
def protocolTypeSince : List (String × Int) := [
  ("tls", SpecVersion1_6),
  ("ssh", SpecVersion1_6),
  ("ipsec", SpecVersion1_6),
  ("ike", SpecVersion1_6),
  ("sstp", SpecVersion1_6),
  ("wpa", SpecVersion1_6),
  ("other", SpecVersion1_6),
  ("unknown", SpecVersion1_6),
  ("dtls", SpecVersion1_7),
  ("quic", SpecVersion1_7),
  ("eap-aka", SpecVersion1_7),
  ("eap-aka-prime", SpecVersion1_7),
  ("prins", SpecVersion1_7),
  ("5g-aka", SpecVersion1_7)]

end Verif.Spec
