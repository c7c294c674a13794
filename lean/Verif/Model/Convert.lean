import Verif.Model.Enums
import Verif.Model.Version
import Verif.Model.Recurse

/-!
# Version conversion: model of /repo/convert.go

Every Go function that modifies the value behind a pointer is a function returning the new value; a nil
pointer is `none`/`.nil` and is passed through, as the `if x == nil { return }` guards of the code do.
The sequence of `if specVersion < ...` statements of the code is kept as a sequence of `let`s.
-/

namespace Verif

/-! ## What a version supports, convert.go:749-856 -/

/-- convert.go:749-762 -/
def supportsComponentType (sv : Int) (t : ComponentType) : Bool :=
  if t ∈ [ComponentTypeApplication, ComponentTypeDevice, ComponentTypeFramework, ComponentTypeLibrary,
      ComponentTypeOS] then sv ≥ SpecVersion1_0
  else if t ∈ [ComponentTypeFile] then sv ≥ SpecVersion1_1
  else if t ∈ [ComponentTypeContainer, ComponentTypeFirmware] then sv ≥ SpecVersion1_2
  else if t ∈ [ComponentTypeData, ComponentTypeDeviceDriver, ComponentTypeMachineLearningModel,
      ComponentTypePlatform] then sv ≥ SpecVersion1_5
  else false

/-- convert.go:764-772 -/
def supportsCompositionAggregate (sv : Int) (a : CompositionAggregate) : Bool :=
  if a ∈ [CompositionAggregateIncompleteFirstPartyOpenSourceOnly,
      CompositionAggregateIncompleteFirstPartyProprietaryOnly,
      CompositionAggregateIncompleteThirdPartyOpenSourceOnly,
      CompositionAggregateIncompleteThirdPartyProprietaryOnly] then sv ≥ SpecVersion1_5
  else sv ≥ SpecVersion1_3

/-- convert.go:774-803 -/
def supportsExternalReferenceType (sv : Int) (t : ExternalReferenceType) : Bool :=
  if t ∈ [ERTypeAdversaryModel, ERTypeAttestation, ERTypeCertificationReport,
      ERTypeCodifiedInfrastructure, ERTypeComponentAnalysisReport, ERTypeConfiguration,
      ERTypeDistributionIntake, ERTypeDynamicAnalysisReport, ERTypeEvidence,
      ERTypeExploitabilityStatement, ERTypeFormulation, ERTypeLog, ERTypeMaturityReport,
      ERTypeModelCard, ERTypePentestReport, ERTypeQualityMetrics, ERTypeRiskAssessment,
      ERTypeRuntimeAnalysisReport, ERTypeStaticAnalysisReport, ERTypeThreatModel,
      ERTypeVulnerabilityAssertion] then sv ≥ SpecVersion1_5
  else if t ∈ [ERTypePatent, ERTypePatentFamily, ERTypePatentAssertion, ERTypeCitation] then
    sv ≥ SpecVersion1_7
  else sv ≥ SpecVersion1_1

/-- convert.go:805-811 -/
def supportsCryptoPrimitive (sv : Int) (p : CryptoPrimitive) : Bool :=
  if p ∈ [CryptoPrimitiveKeyWrap] then sv ≥ SpecVersion1_7 else sv ≥ SpecVersion1_6

/-- convert.go:813-821 -/
def supportsCryptoProtocolType (sv : Int) (t : CryptoProtocolType) : Bool :=
  if t ∈ [CryptoProtocolTypeDTLS, CryptoProtocolTypeQUIC, CryptoProtocolTypeEAPAKA,
      CryptoProtocolTypeEAPAKAPrime, CryptoProtocolTypePRINS, CryptoProtocolType5GAKA] then
    sv ≥ SpecVersion1_7
  else sv ≥ SpecVersion1_6

/-- convert.go:823-834 -/
def supportsHashAlgorithm (sv : Int) (a : HashAlgorithm) : Bool :=
  if a ∈ [HashAlgoMD5, HashAlgoSHA1, HashAlgoSHA256, HashAlgoSHA384, HashAlgoSHA512, HashAlgoSHA3_256,
      HashAlgoSHA3_512] then sv ≥ SpecVersion1_0
  else if a ∈ [HashAlgoSHA3_384, HashAlgoBlake2b_256, HashAlgoBlake2b_384, HashAlgoBlake2b_512,
      HashAlgoBlake3] then sv ≥ SpecVersion1_2
  else if a ∈ [HashAlgoStreebog256, HashAlgoStreebog512] then sv ≥ SpecVersion1_7
  else false

/-- convert.go:836-845 -/
def supportsScope (sv : Int) (s : Scope) : Bool :=
  if s ∈ [ScopeRequired, ScopeOptional] then sv ≥ SpecVersion1_0
  else if s ∈ [ScopeExcluded] then sv ≥ SpecVersion1_2
  else false

/-- convert.go:847-856 -/
def supportsScoringMethod (sv : Int) (m : ScoringMethod) : Bool :=
  if m ∈ [ScoringMethodCVSSv2, ScoringMethodCVSSv3, ScoringMethodCVSSv31, ScoringMethodOWASP,
      ScoringMethodOther] then sv ≥ SpecVersion1_4
  else if m ∈ [ScoringMethodCVSSv4, ScoringMethodSSVC] then sv ≥ SpecVersion1_5
  else false

/-! ## Leaf conversions -/

/-- convert.go:431-439 -/
def convertOrganizationalContact (sv : Int) (c : OrganizationalContact) : OrganizationalContact :=
  if sv < SpecVersion1_5 then { c with bomRef := "" } else c

/-- convert.go:411-429 -/
def convertOrganizationalEntity (sv : Int) (org : OrganizationalEntity) : OrganizationalEntity :=
  let org := if sv < SpecVersion1_5 then
      { org with bomRef := "", contact := org.contact.map (convertOrganizationalContact sv) }
    else org
  if sv < SpecVersion1_6 then { org with address := none } else org

/-- convert.go:253-268 (one iteration of the loop) -/
def convertComposition (sv : Int) (comp : Composition) : Composition :=
  let comp := if sv < SpecVersion1_5 then { comp with bomRef := "", vulnerabilities := .nil } else comp
  if !supportsCompositionAggregate sv comp.aggregate then
    { comp with aggregate := CompositionAggregateUnknown }
  else comp

/-- convert.go:253-268 -/
def convertCompositions (sv : Int) (comps : PSlice Composition) : PSlice Composition :=
  comps.map (convertComposition sv)

/-- convert.go:271-286 -/
def convertDataClassifications (sv : Int) (ds : PSlice DataClassification) :
    PSlice DataClassification :=
  if sv < SpecVersion1_6 then
    ds.map fun d =>
      { d with name := "", description := "", governance := none, source := .nil, destination := .nil }
  else ds

/-- convert.go:295-308 (one iteration of the loop) -/
def convertExternalReference (sv : Int) (r : ExternalReference) : ExternalReference :=
  let r := if !supportsExternalReferenceType sv r.type then { r with type := ERTypeOther } else r
  let r := if sv < SpecVersion1_3 then { r with hashes := .nil } else r
  if sv < SpecVersion1_7 then { r with properties := .nil } else r

/-- convert.go:289-309 -/
def convertExternalReferences (sv : Int) (rs : PSlice ExternalReference) : PSlice ExternalReference :=
  rs.map (convertExternalReference sv)

/-- `if len(converted) == 0 { *p = nil } else { *p = converted }` for a non-nil pointer `p`. -/
def storeOrNil {α : Type u} (converted : List α) : PSlice α :=
  if converted.isEmpty then .nilSlice else .list converted

/-- convert.go:313-331 -/
def convertHashes (sv : Int) (hashes : PSlice Hash) : PSlice Hash :=
  match hashes with
  | .nil => .nil
  | hs => storeOrNil (hs.elems.filter fun h => supportsHashAlgorithm sv h.algorithm)

/-- convert.go:343-352: the loop body of the branch below 1.1, on one choice. -/
def convertLicense1_0 (choice : LicenseChoice) : LicenseChoice :=
  let choice := match choice.license with
    | none => choice
    | some l =>
      if l.id = "" ∧ l.name = "" then { choice with license := none }
      else { choice with license := some { l with text := none, url := "" } }
  { choice with expression := "" }

/-- convert.go:340-363 -/
def convertLicenses1_0 (licenses : PSlice LicenseChoice) : PSlice LicenseChoice :=
  match licenses with
  | .nil => .nil
  | ls => storeOrNil ((ls.elems.map convertLicense1_0).filter fun c => c.license.isSome)

/-- convert.go:365-374 -/
def convertLicense1_4 (choice : LicenseChoice) : LicenseChoice :=
  { choice with license := choice.license.map fun l =>
      { l with bomRef := "", licensing := none, properties := .nil } }

/-- convert.go:389-391 and its repetitions: the organisation of a licensing party. -/
def convertParty (sv : Int) (p : OrganizationalEntityOrContact) : OrganizationalEntityOrContact :=
  { p with organization := p.organization.map (convertOrganizationalEntity sv) }

/-- convert.go:385-397 -/
def convertLicensing (sv : Int) (l : Licensing) : Licensing :=
  { l with licensor := l.licensor.map (convertParty sv), licensee := l.licensee.map (convertParty sv),
           purchaser := l.purchaser.map (convertParty sv) }

/-- convert.go:376-399 -/
def convertLicense1_5 (sv : Int) (choice : LicenseChoice) : LicenseChoice :=
  { choice with license := choice.license.map fun l =>
      { l with acknowledgement := "", licensing := l.licensing.map (convertLicensing sv) } }

/-- convert.go:401-408 -/
def convertLicense1_6 (choice : LicenseChoice) : LicenseChoice :=
  { choice with expressionDetails := .nil, licensing := none, properties := .nil }

/-- convert.go:335-409 -/
def convertLicenses (sv : Int) (licenses : PSlice LicenseChoice) : PSlice LicenseChoice :=
  let licenses := if sv < SpecVersion1_1 then convertLicenses1_0 licenses else licenses
  let licenses := if sv < SpecVersion1_5 then licenses.map convertLicense1_4 else licenses
  let licenses := if sv < SpecVersion1_6 then licenses.map (convertLicense1_5 sv) else licenses
  if sv < SpecVersion1_7 then licenses.map convertLicense1_6 else licenses

/-! ## Components -/

/-- convert.go:225-233: at 1.5 a list of identities becomes its first element. -/
def firstIdentity (i : Option EvidenceIdentityChoice) : Option EvidenceIdentityChoice :=
  match i with
  | none => none
  | some ch =>
    match ch.identities with
    | .nil => some ch
    | ids =>
      match ids.elems with
      | [] => none
      | first :: _ => some { identity := some first }

/-- convert.go:234-237 -/
def clearConcludedValue (i : Option EvidenceIdentityChoice) : Option EvidenceIdentityChoice :=
  i.map fun ch => { ch with identity := ch.identity.map fun id => { id with concludedValue := "" } }

/-- convert.go:238-247 -/
def clearOccurrence (o : EvidenceOccurrence) : EvidenceOccurrence :=
  { o with line := none, offset := none, symbol := "", additionalContext := "" }

/-- convert.go:205-251. Note the `return` of the branch below 1.5: the licenses of the evidence are
then left as they are. -/
def convertEvidence (sv : Int) (ev : Option Evidence) : Option Evidence :=
  match ev with
  | none => none
  | some e =>
    if sv < SpecVersion1_3 then none
    else if sv < SpecVersion1_5 then
      some { e with identity := none, occurrences := .nil, callstack := none }
    else
      let e := if sv < SpecVersion1_6 then
          { e with identity := clearConcludedValue (firstIdentity e.identity),
                   occurrences := e.occurrences.map clearOccurrence }
        else e
      some { e with licenses := convertLicenses sv e.licenses }

/-- convert.go:441-451 -/
def convertModelCard (sv : Int) (mc : Option MLModelCard) : Option MLModelCard :=
  mc.map fun mc =>
    if sv < SpecVersion1_6 then
      { mc with considerations := mc.considerations.map fun c =>
          { c with environmentalConsiderations := none } }
    else mc

/-- convert.go:458-466 -/
def convertAlgorithmProperties (sv : Int) (p : CryptoAlgorithmProperties) :
    CryptoAlgorithmProperties :=
  let p := if sv < SpecVersion1_7 then { p with algorithmFamily := "", ellipticCurve := "" } else p
  if !supportsCryptoPrimitive sv p.primitive then { p with primitive := "" } else p

/-- convert.go:472-486 -/
def convertCertificateProperties (sv : Int) (p : CertificateProperties) : CertificateProperties :=
  if sv < SpecVersion1_7 then
    { p with serialNumber := "", certificateFileExtension := "", fingerprint := none,
             certificateState := .nil, certificateExtensions := .nil,
             relatedCryptographicAssets := .nil, creationDate := "", activationDate := "",
             deactivationDate := "", revocationDate := "", destructionDate := "" }
  else p

/-- convert.go:488-493 -/
def convertRelatedCryptoMaterial (sv : Int) (p : RelatedCryptoMaterialProperties) :
    RelatedCryptoMaterialProperties :=
  if sv < SpecVersion1_7 then { p with fingerprint := none, relatedCryptographicAssets := .nil } else p

/-- convert.go:468-470 and 495-509 -/
def convertProtocolProperties (sv : Int) (p : CryptoProtocolProperties) : CryptoProtocolProperties :=
  let p := if !supportsCryptoProtocolType sv p.type then { p with type := "" } else p
  let p := if sv < SpecVersion1_7 then { p with relatedCryptographicAssets := .nil } else p
  { p with cipherSuites := p.cipherSuites.map fun cs =>
      if sv < SpecVersion1_7 then { cs with tlsGroups := .nil, tlsSignatureSchemes := .nil } else cs }

/-- convert.go:453-510 -/
def convertCryptoProperties (sv : Int) (cp : Option CryptoProperties) : Option CryptoProperties :=
  cp.map fun cp =>
    { cp with
      algorithmProperties := cp.algorithmProperties.map (convertAlgorithmProperties sv)
      protocolProperties := cp.protocolProperties.map (convertProtocolProperties sv)
      certificateProperties := cp.certificateProperties.map (convertCertificateProperties sv)
      relatedCryptoMaterialProperties :=
        cp.relatedCryptoMaterialProperties.map (convertRelatedCryptoMaterial sv) }

/-- convert.go:136-203 -/
def componentConverter (sv : Int) (c : Component) : Component :=
  let c := if sv < SpecVersion1_1 then
      { c with bomRef := "", externalReferences := .nil,
               modified := (match c.modified with | none => some false | some m => some m),
               pedigree := none }
    else c
  let c := if sv < SpecVersion1_2 then
      { c with author := "", mimeType := "",
               pedigree := c.pedigree.map (fun p => { p with patches := .nil }),
               supplier := none, swid := none }
    else c
  let c := if sv < SpecVersion1_3 then { c with properties := .nil } else c
  let c := if sv < SpecVersion1_4 then
      { c with releaseNotes := none, version := if c.version = "" then "0.0.0" else c.version }
    else c
  let c := if sv < SpecVersion1_5 then { c with modelCard := none, data := .nil } else c
  let c := if sv < SpecVersion1_6 then
      { c with swhid := .nil, omniborID := .nil, manufacturer := none, authors := .nil, tags := .nil,
               cryptoProperties := none }
    else c
  let c := if sv < SpecVersion1_7 then
      { c with isExternal := none, patentAssertions := .nil, versionRange := "" }
    else c
  let c := if !supportsComponentType sv c.type then { c with type := ComponentTypeApplication } else c
  let c := { c with externalReferences := convertExternalReferences sv c.externalReferences }
  let c := { c with hashes := convertHashes sv c.hashes }
  let c := { c with licenses := convertLicenses sv c.licenses }
  let c := { c with evidence := convertEvidence sv c.evidence }
  let c := { c with modelCard := convertModelCard sv c.modelCard }
  let c := { c with cryptoProperties := convertCryptoProperties sv c.cryptoProperties }
  if !supportsScope sv c.scope then { c with scope := "" } else c

/-! ## Services -/

/-- convert.go:579-604 -/
def serviceConverter (sv : Int) (s : Service) : Service :=
  let s := if sv < SpecVersion1_3 then { s with properties := .nil } else s
  let s := if sv < SpecVersion1_4 then { s with releaseNotes := none } else s
  let s := if sv < SpecVersion1_5 then { s with trustZone := "" } else s
  let s := if sv < SpecVersion1_6 then { s with data := convertDataClassifications sv s.data } else s
  let s := if sv < SpecVersion1_7 then { s with patentAssertions := .nil } else s
  let s := { s with provider := s.provider.map (convertOrganizationalEntity sv) }
  { s with externalReferences := convertExternalReferences sv s.externalReferences }

/-! ## Tools -/

/-- convert.go:671-687 (never returns nil) -/
def convertComponentToTool (c : Component) : Tool :=
  { vendor := (match c.supplier with | some s => s.name | none => c.author),
    name := c.name, version := c.version, hashes := c.hashes,
    externalReferences := c.externalReferences }

/-- convert.go:690-702 (never returns nil) -/
def convertServiceToTool (s : Service) : Tool :=
  { vendor := (match s.provider with | some p => p.name | none => ""),
    name := s.name, version := s.version, externalReferences := s.externalReferences }

/-- convert.go:657-668 -/
def convertTool (sv : Int) (t : Tool) : Tool :=
  let t := if sv < SpecVersion1_4 then { t with externalReferences := .nil } else t
  let t := { t with externalReferences := convertExternalReferences sv t.externalReferences }
  { t with hashes := convertHashes sv t.hashes }

/-- convert.go:612-641: the part below 1.5. -/
def toolsToLegacy (tc : ToolsChoice) : ToolsChoice :=
  let converted := tc.components.elems.map convertComponentToTool ++
    tc.services.elems.map convertServiceToTool
  { tools :=
      if converted.isEmpty then tc.tools
      else match tc.tools with
        | .nil => .list converted
        | ts => .list (ts.elems ++ converted)
    components := .nil
    services := .nil }

/-- convert.go:607-654 -/
def convertTools (sv : Int) (tc : ToolsChoice) : ToolsChoice :=
  let tc := if sv < SpecVersion1_5 then toolsToLegacy tc else tc
  let tc := { tc with services := tc.services.map fun (s : Service) =>
    { s with provider := s.provider.map (convertOrganizationalEntity sv) } }
  { tc with tools := tc.tools.map (convertTool sv) }

/-! ## Vulnerabilities and annotations -/

/-- convert.go:548-555 -/
def convertRating (sv : Int) (r : VulnerabilityRating) : VulnerabilityRating :=
  if !supportsScoringMethod sv r.method then { r with method := ScoringMethodOther } else r

/-- convert.go:517-556 (one iteration of the loop) -/
def convertVulnerability (sv : Int) (v : Vulnerability) : Vulnerability :=
  let v := { v with tools := v.tools.map (convertTools sv) }
  let v := if sv < SpecVersion1_5 then
      { v with proofOfConcept := none, rejected := "", workaround := "",
               analysis := v.analysis.map fun a => { a with firstIssued := "", lastUpdated := "" } }
    else v
  let v := if sv < SpecVersion1_6 then
      { v with credits := v.credits.map fun c =>
          { c with organizations := c.organizations.map (convertOrganizationalEntity sv),
                   individuals := c.individuals.map (convertOrganizationalContact sv) } }
    else v
  { v with ratings := v.ratings.map (convertRating sv) }

/-- convert.go:512-557 -/
def convertVulnerabilities (sv : Int) (vs : PSlice Vulnerability) : PSlice Vulnerability :=
  vs.map (convertVulnerability sv)

/-- convert.go:572-573: only organisation and service of the annotator are converted. -/
def convertAnnotator (sv : Int) (a : Annotator) : Annotator :=
  { a with organization := a.organization.map (convertOrganizationalEntity sv),
           service := a.service.map (recurseService (serviceConverter sv)) }

/-- convert.go:559-576 -/
def convertAnnotations (sv : Int) (as : PSlice Annotation) : PSlice Annotation :=
  if sv < SpecVersion1_6 then
    as.map fun a => { a with annotator := a.annotator.map (convertAnnotator sv) }
  else as

/-! ## The whole BOM -/

/-- convert.go:72-100: the block `if b.Metadata != nil`. -/
def convertMetadata (sv : Int) (m : Metadata) : Metadata :=
  let m := if sv < SpecVersion1_3 then { m with licenses := .nil, properties := .nil } else m
  let m := if sv < SpecVersion1_5 then { m with lifecycles := .nil } else m
  let m := if sv < SpecVersion1_6 then { m with manufacturer := none } else m
  let m := if sv < SpecVersion1_7 then { m with distributionConstraints := none } else m
  let m := { m with component := m.component.map (recurseComponent (componentConverter sv)) }
  let m := { m with licenses := convertLicenses sv m.licenses }
  let m := { m with tools := m.tools.map (convertTools sv) }
  let m := { m with manufacture := m.manufacture.map (convertOrganizationalEntity sv) }
  let m := { m with supplier := m.supplier.map (convertOrganizationalEntity sv) }
  { m with authors := m.authors.map (convertOrganizationalContact sv) }

/-- convert.go:35-133 -/
def convert (sv : Int) (b : BOM) : BOM :=
  let b := if sv < SpecVersion1_1 then { b with serialNumber := "", externalReferences := .nil } else b
  let b := if sv < SpecVersion1_2 then
      { b with dependencies := .nil, metadata := none, services := .nil }
    else b
  let b := if sv < SpecVersion1_3 then { b with compositions := .nil } else b
  let b := if sv < SpecVersion1_4 then { b with vulnerabilities := .nil } else b
  let b := if sv < SpecVersion1_5 then { b with annotations := .nil, formulation := .nil } else b
  let b := if sv < SpecVersion1_6 then { b with declarations := none, definitions := none } else b
  let b := if sv < SpecVersion1_7 then
      { b with citations := .nil, definitions := b.definitions.map fun d => { d with patents := .nil } }
    else b
  let b := if sv < SpecVersion1_6 then
      { b with dependencies := b.dependencies.map fun d => { d with provides := .nil } }
    else b
  let b := { b with metadata := b.metadata.map (convertMetadata sv) }
  let b := { b with components := b.components.map (recurseComponent (componentConverter sv)) }
  let b := { b with services := b.services.map (recurseService (serviceConverter sv)) }
  let b := { b with vulnerabilities := convertVulnerabilities sv b.vulnerabilities }
  let b := { b with compositions := convertCompositions sv b.compositions }
  let b := { b with externalReferences := convertExternalReferences sv b.externalReferences }
  let b := { b with annotations := convertAnnotations sv b.annotations }
  { b with specVersion := sv, xmlns := mapGet xmlNamespaces sv, jsonSchema := mapGet jsonSchemas sv }

/-- cyclonedx.go:133-141 -/
def newBOM : BOM :=
  { jsonSchema := mapGet jsonSchemas SpecVersion1_7
    xmlns := mapGet xmlNamespaces SpecVersion1_7
    bomFormat := "CycloneDX"
    specVersion := SpecVersion1_7
    version := 1 }

end Verif
