import Verif.Model.Mem
import Verif.Model.FieldNumbers
import Verif.Model.Convert

/-!
# convert.go as it is written: assignments through pointers

`Model/Convert` gives each function of `/repo/convert.go` as a function from values to values.  Here the same functions
are programs over memory (`Model/Mem`), statement by statement: a parameter of pointer type is the variable it points
to, a field is reached by its position in the struct, assignments change the variable in place, and following a pointer
that is nil is a panic.  `Props/Refine` proves that the two agree.

Conventions, where the Go text and the text below differ:

* A guard `if x == nil { return }` at the head of a function is at the place of the call: `whenPtr (c.field ...) f` is
  the call `f(c.field)` of such a function.
* `for i := range *s` evaluates `*s` once; the loops below also use that slice for the elements `(*s)[i]` (the bodies
  do not assign to `*s`).
* Strings and version numbers are compared by the functions of `Model/Convert` (`supportsScope` and so on), which do
  not touch memory.
* The recursions take a number of steps, after which they fail; the theorems say that there is a number that suffices.
-/

namespace Verif.Heap.Go
open Verif

/-- convert.go:431-439 -/
def convertOrganizationalContact (sv : Int) (c : Loc) : Prog Unit :=
  ifThen (sv < SpecVersion1_5) (setStr (c.field F.OrganizationalContact.bomRef) "")

/-- convert.go:411-429 -/
def convertOrganizationalEntity (sv : Int) (org : Loc) : Prog Unit := do
  ifThen (sv < SpecVersion1_5) do
    setStr (org.field F.OrganizationalEntity.bomRef) ""
    whenElems (org.field F.OrganizationalEntity.contact) (convertOrganizationalContact sv)
  ifThen (sv < SpecVersion1_6) (setNil (org.field F.OrganizationalEntity.address))

/-- convert.go:253-268: the loop body; `comps` is not nil. -/
def convertComposition (sv : Int) (comp : Loc) : Prog Unit := do
  ifThen (sv < SpecVersion1_5) do
    setStr (comp.field F.Composition.bomRef) ""
    setNil (comp.field F.Composition.vulnerabilities)
  ifStr (comp.field F.Composition.aggregate) (fun a => !supportsCompositionAggregate sv a)
    (setStr (comp.field F.Composition.aggregate) CompositionAggregateUnknown)

/-- convert.go:271-286: `l` is the variable that holds the argument. -/
def convertDataClassifications (sv : Int) (l : Loc) : Prog Unit :=
  whenPtr l fun dcs =>
    ifThen (sv < SpecVersion1_6) do
      forElems dcs fun d => do
        setStr (d.field F.DataClassification.name) ""
        setStr (d.field F.DataClassification.description) ""
        setNil (d.field F.DataClassification.governance)
        setNil (d.field F.DataClassification.source)
        setNil (d.field F.DataClassification.destination)

/-- convert.go:295-308: the loop body. -/
def convertExternalReference (sv : Int) (extRef : Loc) : Prog Unit := do
  ifStr (extRef.field F.ExternalReference.type) (fun t => !supportsExternalReferenceType sv t)
    (setStr (extRef.field F.ExternalReference.type) ERTypeOther)
  ifThen (sv < SpecVersion1_3) (setNil (extRef.field F.ExternalReference.hashes))
  ifThen (sv < SpecVersion1_7) (setNil (extRef.field F.ExternalReference.properties))

/-- convert.go:289-309: `l` is the variable that holds the argument. -/
def convertExternalReferences (sv : Int) (l : Loc) : Prog Unit :=
  whenElems l (convertExternalReference sv)

/-- convert.go:313-331: `l` is the variable that holds the argument. -/
def convertHashes (sv : Int) (l : Loc) : Prog Unit :=
  whenPtr l fun hashes =>
    collect hashes (fun _ => pure ()) fun hash => do
      pure (supportsHashAlgorithm sv (← readStr (hash.field F.Hash.algorithm)))

/-- convert.go:343-352: the loop body below 1.1, up to the test of line 353. -/
def convertLicense1_0 (choice : Loc) : Prog Unit := do
  ifNotNil (choice.field F.LicenseChoice.license) do
    let id ← deref (choice.field F.LicenseChoice.license) fun l => readStr (l.field F.License.id)
    let name ← deref (choice.field F.LicenseChoice.license) fun l => readStr (l.field F.License.name)
    if id = "" ∧ name = "" then
      setNil (choice.field F.LicenseChoice.license)
    else do
      deref (choice.field F.LicenseChoice.license) fun l => setNil (l.field F.License.text)
      deref (choice.field F.LicenseChoice.license) fun l => setStr (l.field F.License.url) ""
  setStr (choice.field F.LicenseChoice.expression) ""

/-- convert.go:341-362 -/
def convertLicenses1_0 (licenses : Loc) : Prog Unit :=
  collect licenses convertLicense1_0 fun choice => do
    pure (!(← readNil (choice.field F.LicenseChoice.license)))

/-- convert.go:367-372 -/
def convertLicense1_4 (choice : Loc) : Prog Unit :=
  ifNotNil (choice.field F.LicenseChoice.license) do
    deref (choice.field F.LicenseChoice.license) fun l => setStr (l.field F.License.bomRef) ""
    deref (choice.field F.LicenseChoice.license) fun l => setNil (l.field F.License.licensing)
    deref (choice.field F.LicenseChoice.license) fun l => setNil (l.field F.License.properties)

/-- convert.go:389-391: `l` is the variable that holds the party. -/
def convertParty (sv : Int) (l : Loc) : Prog Unit :=
  ifNotNil l
    (deref l fun p => whenPtr (p.field F.OrganizationalEntityOrContact.organization) (convertOrganizationalEntity sv))

/-- convert.go:378-397 -/
def convertLicense1_5 (sv : Int) (choice : Loc) : Prog Unit :=
  ifNotNil (choice.field F.LicenseChoice.license) do
    deref (choice.field F.LicenseChoice.license) fun l => setStr (l.field F.License.acknowledgement) ""
    deref (choice.field F.LicenseChoice.license) fun l =>
      ifNotNil (l.field F.License.licensing) do
        deref (l.field F.License.licensing) fun x => convertParty sv (x.field F.Licensing.licensor)
        deref (l.field F.License.licensing) fun x => convertParty sv (x.field F.Licensing.licensee)
        deref (l.field F.License.licensing) fun x => convertParty sv (x.field F.Licensing.purchaser)

/-- convert.go:403-406 -/
def convertLicense1_6 (choice : Loc) : Prog Unit := do
  setNil (choice.field F.LicenseChoice.expressionDetails)
  setNil (choice.field F.LicenseChoice.licensing)
  setNil (choice.field F.LicenseChoice.properties)

/-- convert.go:335-409: `l` is the variable that holds the argument. -/
def convertLicenses (sv : Int) (l : Loc) : Prog Unit :=
  whenPtr l fun licenses => do
    ifThen (sv < SpecVersion1_1) (convertLicenses1_0 licenses)
    ifThen (sv < SpecVersion1_5) (forElems licenses convertLicense1_4)
    ifThen (sv < SpecVersion1_6) (forElems licenses (convertLicense1_5 sv))
    ifThen (sv < SpecVersion1_7) (forElems licenses convertLicense1_6)

/-- convert.go:225-233: `l` is the variable `c.Evidence.Identity`. -/
def firstIdentity (l : Loc) : Prog Unit :=
  ifNotNil l do
    if ← deref l fun i => readNil (i.field F.EvidenceIdentityChoice.identities) then
      pure ()
    else do
      let ids ← deref l fun i => deref (i.field F.EvidenceIdentityChoice.identities) read
      match ids with
      | .slice a (_ + 1) => do
        let first ← alloc (← read ⟨a, [0]⟩)
        let choice ← alloc (.agg [.ptr first, .nilPtr])
        write l (.ptr choice)
      | .slice _ 0 => setNil l
      | .nilSlice => setNil l
      | _ => Prog.panic

/-- convert.go:234-237: `l` is the variable `c.Evidence.Identity`. -/
def clearConcludedValue (l : Loc) : Prog Unit :=
  ifNotNil l
    (deref l fun i => ifNotNil (i.field F.EvidenceIdentityChoice.identity)
      (deref (i.field F.EvidenceIdentityChoice.identity) fun x =>
        setStr (x.field F.EvidenceIdentity.concludedValue) ""))

/-- convert.go:240-245 -/
def clearOccurrence (occ : Loc) : Prog Unit := do
  setNil (occ.field F.EvidenceOccurrence.line)
  setNil (occ.field F.EvidenceOccurrence.offset)
  setStr (occ.field F.EvidenceOccurrence.symbol) ""
  setStr (occ.field F.EvidenceOccurrence.additionalContext) ""

/-- convert.go:205-251 -/
def convertEvidence (sv : Int) (c : Loc) : Prog Unit :=
  ifNotNil (c.field F.Component.evidence) do
    if sv < SpecVersion1_3 then
      setNil (c.field F.Component.evidence)
    else if sv < SpecVersion1_5 then do
      deref (c.field F.Component.evidence) fun e => setNil (e.field F.Evidence.identity)
      deref (c.field F.Component.evidence) fun e => setNil (e.field F.Evidence.occurrences)
      deref (c.field F.Component.evidence) fun e => setNil (e.field F.Evidence.callstack)
    else do
      ifThen (sv < SpecVersion1_6) do
        deref (c.field F.Component.evidence) fun e => firstIdentity (e.field F.Evidence.identity)
        deref (c.field F.Component.evidence) fun e => clearConcludedValue (e.field F.Evidence.identity)
        deref (c.field F.Component.evidence) fun e => whenElems (e.field F.Evidence.occurrences) clearOccurrence
      deref (c.field F.Component.evidence) fun e => convertLicenses sv (e.field F.Evidence.licenses)

/-- convert.go:441-451 -/
def convertModelCard (sv : Int) (c : Loc) : Prog Unit :=
  ifNotNil (c.field F.Component.modelCard) do
    ifThen (sv < SpecVersion1_6) do
      deref (c.field F.Component.modelCard) fun m =>
        ifNotNil (m.field F.MLModelCard.considerations)
          (deref (m.field F.MLModelCard.considerations) fun x =>
            setNil (x.field F.MLModelCardConsiderations.environmentalConsiderations))

/-- convert.go:453-510: `cp` is not nil. -/
def convertCryptoProperties (sv : Int) (cp : Loc) : Prog Unit := do
  ifNotNil (cp.field F.CryptoProperties.algorithmProperties) do
    ifThen (sv < SpecVersion1_7) do
      deref (cp.field F.CryptoProperties.algorithmProperties) fun p =>
        setStr (p.field F.CryptoAlgorithmProperties.algorithmFamily) ""
      deref (cp.field F.CryptoProperties.algorithmProperties) fun p =>
        setStr (p.field F.CryptoAlgorithmProperties.ellipticCurve) ""
    deref (cp.field F.CryptoProperties.algorithmProperties) fun p =>
      ifStr (p.field F.CryptoAlgorithmProperties.primitive) (fun t => !supportsCryptoPrimitive sv t)
        (setStr (p.field F.CryptoAlgorithmProperties.primitive) "")
  ifNotNil (cp.field F.CryptoProperties.protocolProperties)
    (deref (cp.field F.CryptoProperties.protocolProperties) fun p =>
      ifStr (p.field F.CryptoProtocolProperties.type) (fun t => !supportsCryptoProtocolType sv t)
        (setStr (p.field F.CryptoProtocolProperties.type) ""))
  ifNotNil (cp.field F.CryptoProperties.certificateProperties) do
    ifThen (sv < SpecVersion1_7) do
      deref (cp.field F.CryptoProperties.certificateProperties) fun p =>
        setStr (p.field F.CertificateProperties.serialNumber) ""
      deref (cp.field F.CryptoProperties.certificateProperties) fun p =>
        setStr (p.field F.CertificateProperties.certificateFileExtension) ""
      deref (cp.field F.CryptoProperties.certificateProperties) fun p =>
        setNil (p.field F.CertificateProperties.fingerprint)
      deref (cp.field F.CryptoProperties.certificateProperties) fun p =>
        setNil (p.field F.CertificateProperties.certificateState)
      deref (cp.field F.CryptoProperties.certificateProperties) fun p =>
        setNil (p.field F.CertificateProperties.certificateExtensions)
      deref (cp.field F.CryptoProperties.certificateProperties) fun p =>
        setNil (p.field F.CertificateProperties.relatedCryptographicAssets)
      deref (cp.field F.CryptoProperties.certificateProperties) fun p =>
        setStr (p.field F.CertificateProperties.creationDate) ""
      deref (cp.field F.CryptoProperties.certificateProperties) fun p =>
        setStr (p.field F.CertificateProperties.activationDate) ""
      deref (cp.field F.CryptoProperties.certificateProperties) fun p =>
        setStr (p.field F.CertificateProperties.deactivationDate) ""
      deref (cp.field F.CryptoProperties.certificateProperties) fun p =>
        setStr (p.field F.CertificateProperties.revocationDate) ""
      deref (cp.field F.CryptoProperties.certificateProperties) fun p =>
        setStr (p.field F.CertificateProperties.destructionDate) ""
  ifNotNil (cp.field F.CryptoProperties.relatedCryptoMaterialProperties) do
    ifThen (sv < SpecVersion1_7) do
      deref (cp.field F.CryptoProperties.relatedCryptoMaterialProperties) fun p =>
        setNil (p.field F.RelatedCryptoMaterialProperties.fingerprint)
      deref (cp.field F.CryptoProperties.relatedCryptoMaterialProperties) fun p =>
        setNil (p.field F.RelatedCryptoMaterialProperties.relatedCryptographicAssets)
  ifNotNil (cp.field F.CryptoProperties.protocolProperties) do
    ifThen (sv < SpecVersion1_7)
      (deref (cp.field F.CryptoProperties.protocolProperties) fun p =>
        setNil (p.field F.CryptoProtocolProperties.relatedCryptographicAssets))
    deref (cp.field F.CryptoProperties.protocolProperties) fun p =>
      whenElems (p.field F.CryptoProtocolProperties.cipherSuites) fun cs =>
        ifThen (sv < SpecVersion1_7) do
          setNil (cs.field F.CipherSuite.tlsGroups)
          setNil (cs.field F.CipherSuite.tlsSignatureSchemes)

/-- convert.go:137-202 -/
def componentConverter (sv : Int) (c : Loc) : Prog Unit := do
  ifThen (sv < SpecVersion1_1) do
    setStr (c.field F.Component.bomRef) ""
    setNil (c.field F.Component.externalReferences)
    ifNil (c.field F.Component.modified) do
      write (c.field F.Component.modified) (.ptr (← alloc (.scalar (.bool false))))
    setNil (c.field F.Component.pedigree)
  ifThen (sv < SpecVersion1_2) do
    setStr (c.field F.Component.author) ""
    setStr (c.field F.Component.mimeType) ""
    ifNotNil (c.field F.Component.pedigree)
      (deref (c.field F.Component.pedigree) fun p => setNil (p.field F.Pedigree.patches))
    setNil (c.field F.Component.supplier)
    setNil (c.field F.Component.swid)
  ifThen (sv < SpecVersion1_3) (setNil (c.field F.Component.properties))
  ifThen (sv < SpecVersion1_4) do
    setNil (c.field F.Component.releaseNotes)
    ifStr (c.field F.Component.version) (fun v => v = "") (setStr (c.field F.Component.version) "0.0.0")
  ifThen (sv < SpecVersion1_5) do
    setNil (c.field F.Component.modelCard)
    setNil (c.field F.Component.data)
  ifThen (sv < SpecVersion1_6) do
    setNil (c.field F.Component.swhid)
    setNil (c.field F.Component.omniborID)
    setNil (c.field F.Component.manufacturer)
    setNil (c.field F.Component.authors)
    setNil (c.field F.Component.tags)
    setNil (c.field F.Component.cryptoProperties)
  ifThen (sv < SpecVersion1_7) do
    setNil (c.field F.Component.isExternal)
    setNil (c.field F.Component.patentAssertions)
    setStr (c.field F.Component.versionRange) ""
  ifStr (c.field F.Component.type) (fun t => !supportsComponentType sv t)
    (setStr (c.field F.Component.type) ComponentTypeApplication)
  convertExternalReferences sv (c.field F.Component.externalReferences)
  convertHashes sv (c.field F.Component.hashes)
  convertLicenses sv (c.field F.Component.licenses)
  convertEvidence sv c
  convertModelCard sv c
  whenPtr (c.field F.Component.cryptoProperties) (convertCryptoProperties sv)
  ifStr (c.field F.Component.scope) (fun s => !supportsScope sv s) (setStr (c.field F.Component.scope) "")

/-- convert.go:580-603 -/
def serviceConverter (sv : Int) (s : Loc) : Prog Unit := do
  ifThen (sv < SpecVersion1_3) (setNil (s.field F.Service.properties))
  ifThen (sv < SpecVersion1_4) (setNil (s.field F.Service.releaseNotes))
  ifThen (sv < SpecVersion1_5) (setStr (s.field F.Service.trustZone) "")
  ifThen (sv < SpecVersion1_6) (convertDataClassifications sv (s.field F.Service.data))
  ifThen (sv < SpecVersion1_7) (setNil (s.field F.Service.patentAssertions))
  whenPtr (s.field F.Service.provider) (convertOrganizationalEntity sv)
  convertExternalReferences sv (s.field F.Service.externalReferences)

/-- convert.go:680-684, 697-699: `if org != nil { vendor = org.Name }`. -/
def nameOr (org vendor : Val) : Prog Val :=
  match org with
  | .nilPtr => pure vendor
  | .ptr p => read (p.field F.OrganizationalEntity.name)
  | _ => Prog.panic

/-- convert.go:671-687: the argument is a copy of the struct; its pointers are those of the original. -/
def convertComponentToTool (component : Val) : Prog Val := do
  let author ← part component F.Component.author
  let name ← part component F.Component.name
  let version ← part component F.Component.version
  let hashes ← part component F.Component.hashes
  let externalReferences ← part component F.Component.externalReferences
  let vendor ← nameOr (← part component F.Component.supplier) author
  pure (.agg [vendor, name, version, hashes, externalReferences])

/-- convert.go:690-702 -/
def convertServiceToTool (service : Val) : Prog Val := do
  let name ← part service F.Service.name
  let version ← part service F.Service.version
  let externalReferences ← part service F.Service.externalReferences
  let vendor ← nameOr (← part service F.Service.provider) (.scalar (.str ""))
  pure (.agg [vendor, name, version, .nilPtr, externalReferences])

/-- convert.go:657-668: `tool` is not nil. -/
def convertTool (sv : Int) (tool : Loc) : Prog Unit := do
  ifThen (sv < SpecVersion1_4) (setNil (tool.field F.Tool.externalReferences))
  convertExternalReferences sv (tool.field F.Tool.externalReferences)
  convertHashes sv (tool.field F.Tool.hashes)

/-- convert.go:613-640 -/
def toolsToLegacy (tools : Loc) : Prog Unit := do
  let cs ← takeElems (tools.field F.ToolsChoice.components) convertComponentToTool
  let ss ← takeElems (tools.field F.ToolsChoice.services) convertServiceToTool
  ifThen ((cs ++ ss).length > 0) do
    if ← readNil (tools.field F.ToolsChoice.tools) then
      write (tools.field F.ToolsChoice.tools) (.ptr (← alloc (← allocSlice (cs ++ ss))))
    else
      deref (tools.field F.ToolsChoice.tools) fun s => appendTo s (cs ++ ss)

/-- convert.go:607-654: `tools` is not nil. -/
def convertTools (sv : Int) (tools : Loc) : Prog Unit := do
  ifThen (sv < SpecVersion1_5) (toolsToLegacy tools)
  whenElems (tools.field F.ToolsChoice.services) fun s =>
    whenPtr (s.field F.Service.provider) (convertOrganizationalEntity sv)
  whenElems (tools.field F.ToolsChoice.tools) (convertTool sv)

/-- convert.go:518-555: the loop body. -/
def convertVulnerability (sv : Int) (vuln : Loc) : Prog Unit := do
  whenPtr (vuln.field F.Vulnerability.tools) (convertTools sv)
  ifThen (sv < SpecVersion1_5) do
    setNil (vuln.field F.Vulnerability.proofOfConcept)
    setStr (vuln.field F.Vulnerability.rejected) ""
    setStr (vuln.field F.Vulnerability.workaround) ""
    ifNotNil (vuln.field F.Vulnerability.analysis) do
      deref (vuln.field F.Vulnerability.analysis) fun a => setStr (a.field F.VulnerabilityAnalysis.firstIssued) ""
      deref (vuln.field F.Vulnerability.analysis) fun a => setStr (a.field F.VulnerabilityAnalysis.lastUpdated) ""
  ifThen (sv < SpecVersion1_6) do
    ifNotNil (vuln.field F.Vulnerability.credits) do
      deref (vuln.field F.Vulnerability.credits) fun c =>
        whenElems (c.field F.Credits.organizations) (convertOrganizationalEntity sv)
      deref (vuln.field F.Vulnerability.credits) fun c =>
        whenElems (c.field F.Credits.individuals) (convertOrganizationalContact sv)
  whenElems (vuln.field F.Vulnerability.ratings) fun r =>
    ifStr (r.field F.VulnerabilityRating.method) (fun m => !supportsScoringMethod sv m)
      (setStr (r.field F.VulnerabilityRating.method) ScoringMethodOther)

/-- convert.go:704-733: `c` is not nil; at most `n` levels. -/
def recurseComponent (f : Loc → Prog Unit) : Nat → Loc → Prog Unit
  | 0, _ => Prog.panic
  | n + 1, c => do
    f c
    whenElems (c.field F.Component.components) (recurseComponent f n)
    ifNotNil (c.field F.Component.pedigree) do
      deref (c.field F.Component.pedigree) fun p => whenElems (p.field F.Pedigree.ancestors) (recurseComponent f n)
      deref (c.field F.Component.pedigree) fun p => whenElems (p.field F.Pedigree.descendants) (recurseComponent f n)
      deref (c.field F.Component.pedigree) fun p => whenElems (p.field F.Pedigree.variants) (recurseComponent f n)

/-- convert.go:735-747: `s` is not nil; at most `n` levels. -/
def recurseService (f : Loc → Prog Unit) : Nat → Loc → Prog Unit
  | 0, _ => Prog.panic
  | n + 1, s => do
    f s
    whenElems (s.field F.Service.services) (recurseService f n)

/-- convert.go:566-573: the loop body.  `ann` is a copy of the struct; the annotator it points to is not copied. -/
def convertAnnotation (n : Nat) (sv : Int) (elem : Loc) : Prog Unit := do
  let ann ← read elem
  match ← part ann F.Annotation.annotator with
  | .nilPtr => pure ()
  | .ptr a => do
    whenPtr (a.field F.Annotator.organization) (convertOrganizationalEntity sv)
    whenPtr (a.field F.Annotator.service) (recurseService (serviceConverter sv) n)
  | _ => Prog.panic

/-- convert.go:559-576: `l` is the variable that holds the argument. -/
def convertAnnotations (n : Nat) (sv : Int) (l : Loc) : Prog Unit :=
  whenPtr l fun annotations => ifThen (sv < SpecVersion1_6) (forElems annotations (convertAnnotation n sv))

/-- convert.go:73-99: the body of `if b.Metadata != nil`; `l` is the variable `b.Metadata`. -/
def convertMetadata (n : Nat) (sv : Int) (l : Loc) : Prog Unit := do
  ifThen (sv < SpecVersion1_3) do
    deref l fun m => setNil (m.field F.Metadata.licenses)
    deref l fun m => setNil (m.field F.Metadata.properties)
  ifThen (sv < SpecVersion1_5) (deref l fun m => setNil (m.field F.Metadata.lifecycles))
  ifThen (sv < SpecVersion1_6) (deref l fun m => setNil (m.field F.Metadata.manufacturer))
  ifThen (sv < SpecVersion1_7) (deref l fun m => setNil (m.field F.Metadata.distributionConstraints))
  deref l fun m => whenPtr (m.field F.Metadata.component) (recurseComponent (componentConverter sv) n)
  deref l fun m => convertLicenses sv (m.field F.Metadata.licenses)
  deref l fun m => whenPtr (m.field F.Metadata.tools) (convertTools sv)
  deref l fun m => whenPtr (m.field F.Metadata.manufacture) (convertOrganizationalEntity sv)
  deref l fun m => whenPtr (m.field F.Metadata.supplier) (convertOrganizationalEntity sv)
  deref l fun m => whenElems (m.field F.Metadata.authors) (convertOrganizationalContact sv)

/-- convert.go:35-133 -/
def convert (n : Nat) (sv : Int) (b : Loc) : Prog Unit := do
  ifThen (sv < SpecVersion1_1) do
    setStr (b.field F.BOM.serialNumber) ""
    setNil (b.field F.BOM.externalReferences)
  ifThen (sv < SpecVersion1_2) do
    setNil (b.field F.BOM.dependencies)
    setNil (b.field F.BOM.metadata)
    setNil (b.field F.BOM.services)
  ifThen (sv < SpecVersion1_3) (setNil (b.field F.BOM.compositions))
  ifThen (sv < SpecVersion1_4) (setNil (b.field F.BOM.vulnerabilities))
  ifThen (sv < SpecVersion1_5) do
    setNil (b.field F.BOM.annotations)
    setNil (b.field F.BOM.formulation)
  ifThen (sv < SpecVersion1_6) do
    setNil (b.field F.BOM.declarations)
    setNil (b.field F.BOM.definitions)
  ifThen (sv < SpecVersion1_7) do
    setNil (b.field F.BOM.citations)
    ifNotNil (b.field F.BOM.definitions)
      (deref (b.field F.BOM.definitions) fun d => setNil (d.field F.Definitions.patents))
  whenPtr (b.field F.BOM.dependencies) fun ds =>
    ifThen (sv < SpecVersion1_6) (forElems ds fun d => setNil (d.field F.Dependency.provides))
  ifNotNil (b.field F.BOM.metadata) (convertMetadata n sv (b.field F.BOM.metadata))
  whenElems (b.field F.BOM.components) (recurseComponent (componentConverter sv) n)
  whenElems (b.field F.BOM.services) (recurseService (serviceConverter sv) n)
  whenElems (b.field F.BOM.vulnerabilities) (convertVulnerability sv)
  whenElems (b.field F.BOM.compositions) (convertComposition sv)
  convertExternalReferences sv (b.field F.BOM.externalReferences)
  convertAnnotations n sv (b.field F.BOM.annotations)
  setInt (b.field F.BOM.specVersion) sv
  setStr (b.field F.BOM.xmlns) (mapGet xmlNamespaces sv)
  setStr (b.field F.BOM.jsonSchema) (mapGet jsonSchemas sv)

/-- convert.go:23-32 with copy.go, called through a pointer to a BOM: `receiver` is the value `*bom` (assigned to the
receiver of the method, a new variable) and `t` is what gob sees of it.  The errors of gob are not modelled (see
`Model/Gob`).  The result is the pointer to the converted copy. -/
def copyAndConvert (n : Nat) (sv : Int) (t : Tree) (receiver : Val) : Prog Loc := fun h =>
  match copyOf t receiver h with
  | (h1, .ptr bomCopy) => (do convert n sv bomCopy; pure bomCopy : Prog Loc) h1
  | _ => none

end Verif.Heap.Go
