import Verif.Model.FieldNumbers
import Verif.Proofs.Typed

/-!
# The positions of fields are those of the trees

GENERATED by `tools/gen_fieldnums.py`; do not edit by hand.
-/

namespace Verif
open Verif.Heap

theorem componentListTree_eq (cs : List Component) : componentListTree cs = cs.map Component.tree := by
  induction cs with
  | nil => simp [componentListTree]
  | cons c cs ih => simp [componentListTree, ih]

theorem componentsTree_eq (p : PSlice Component) : componentsTree p = Tree.pslice Component.tree p := by
  cases p <;> simp [componentsTree, Tree.pslice, componentListTree_eq]

theorem pedigreeOptTree_eq (p : Option (Pedigree Component)) : pedigreeOptTree p = Tree.opt pedigreeTree p := by
  cases p <;> simp [pedigreeOptTree, Tree.opt]

theorem serviceListTree_eq (cs : List Service) : serviceListTree cs = cs.map Service.tree := by
  induction cs with
  | nil => simp [serviceListTree]
  | cons c cs ih => simp [serviceListTree, ih]

theorem servicesTree_eq (p : PSlice Service) : servicesTree p = Tree.pslice Service.tree p := by
  cases p <;> simp [servicesTree, Tree.pslice, serviceListTree_eq]

theorem Component.tree_eq (a : Component) : a.tree =
    .agg [Tree.str a.bomRef, Tree.str a.mimeType, Tree.str a.type, Tree.opt OrganizationalEntity.tree a.supplier, Tree.opt OrganizationalEntity.tree a.manufacturer, Tree.str a.author, Tree.pslice OrganizationalContact.tree a.authors, Tree.str a.publisher, Tree.str a.group, Tree.str a.name, Tree.str a.version, Tree.str a.description, Tree.str a.scope, Tree.pslice Hash.tree a.hashes, Tree.pslice LicenseChoice.tree a.licenses, Tree.str a.copyright, Tree.str a.cpe, Tree.str a.packageURL, Tree.pslice Tree.str a.omniborID, Tree.pslice Tree.str a.swhid, Tree.opt SWID.tree a.swid, Tree.opt Tree.bool a.modified, Tree.opt pedigreeTree a.pedigree, Tree.pslice ExternalReference.tree a.externalReferences, Tree.pslice Property.tree a.properties, Tree.pslice Component.tree a.components, Tree.opt Evidence.tree a.evidence, Tree.opt ReleaseNotes.tree a.releaseNotes, Tree.opt MLModelCard.tree a.modelCard, Tree.pslice ComponentData.tree a.data, Tree.opt CryptoProperties.tree a.cryptoProperties, Tree.pslice Tree.str a.tags, Tree.opt Tree.bool a.isExternal, Tree.pslice PatentAssertion.tree a.patentAssertions, Tree.str a.versionRange, Tree.opt JSFSignature.tree a.signature] := by
  cases a
  simp only [Component.tree, componentsTree_eq, pedigreeOptTree_eq]

theorem Service.tree_eq (a : Service) : a.tree =
    .agg [Tree.str a.bomRef, Tree.opt OrganizationalEntity.tree a.provider, Tree.str a.group, Tree.str a.name, Tree.str a.version, Tree.str a.description, Tree.pslice Tree.str a.endpoints, Tree.opt Tree.bool a.authenticated, Tree.opt Tree.bool a.crossesTrustBoundary, Tree.pslice DataClassification.tree a.data, Tree.pslice LicenseChoice.tree a.licenses, Tree.pslice ExternalReference.tree a.externalReferences, Tree.pslice Property.tree a.properties, Tree.pslice Service.tree a.services, Tree.opt ReleaseNotes.tree a.releaseNotes, Tree.pslice Tree.str a.tags, Tree.str a.trustZone, Tree.pslice PatentAssertion.tree a.patentAssertions, Tree.opt JSFSignature.tree a.signature] := by
  cases a
  simp only [Service.tree, servicesTree_eq]

theorem Pedigree.tree_eq (a : Pedigree Component) : pedigreeTree a =
    .agg [Tree.pslice Component.tree a.ancestors, Tree.pslice Component.tree a.descendants, Tree.pslice Component.tree a.variants, Tree.pslice Commit.tree a.commits, Tree.pslice Patch.tree a.patches, Tree.str a.notes] := by
  cases a
  simp only [pedigreeTree, componentsTree_eq]

theorem BOM.at_xmlName : IsField BOM.tree F.BOM.xmlName XMLName.tree (·.xmlName)
    (fun a y => { a with xmlName := y }) := fun _ => ⟨_, rfl, rfl, fun _ => rfl⟩
theorem BOM.at_xmlns : IsField BOM.tree F.BOM.xmlns Tree.str (·.xmlns)
    (fun a y => { a with xmlns := y }) := fun _ => ⟨_, rfl, rfl, fun _ => rfl⟩
theorem BOM.at_jsonSchema : IsField BOM.tree F.BOM.jsonSchema Tree.str (·.jsonSchema)
    (fun a y => { a with jsonSchema := y }) := fun _ => ⟨_, rfl, rfl, fun _ => rfl⟩
theorem BOM.at_bomFormat : IsField BOM.tree F.BOM.bomFormat Tree.str (·.bomFormat)
    (fun a y => { a with bomFormat := y }) := fun _ => ⟨_, rfl, rfl, fun _ => rfl⟩
theorem BOM.at_specVersion : IsField BOM.tree F.BOM.specVersion Tree.int (·.specVersion)
    (fun a y => { a with specVersion := y }) := fun _ => ⟨_, rfl, rfl, fun _ => rfl⟩
theorem BOM.at_serialNumber : IsField BOM.tree F.BOM.serialNumber Tree.str (·.serialNumber)
    (fun a y => { a with serialNumber := y }) := fun _ => ⟨_, rfl, rfl, fun _ => rfl⟩
theorem BOM.at_version : IsField BOM.tree F.BOM.version Tree.int (·.version)
    (fun a y => { a with version := y }) := fun _ => ⟨_, rfl, rfl, fun _ => rfl⟩
theorem BOM.at_metadata : IsField BOM.tree F.BOM.metadata (Tree.opt Metadata.tree) (·.metadata)
    (fun a y => { a with metadata := y }) := fun _ => ⟨_, rfl, rfl, fun _ => rfl⟩
theorem BOM.at_components : IsField BOM.tree F.BOM.components (Tree.pslice Component.tree) (·.components)
    (fun a y => { a with components := y }) := fun _ => ⟨_, rfl, rfl, fun _ => rfl⟩
theorem BOM.at_services : IsField BOM.tree F.BOM.services (Tree.pslice Service.tree) (·.services)
    (fun a y => { a with services := y }) := fun _ => ⟨_, rfl, rfl, fun _ => rfl⟩
theorem BOM.at_externalReferences : IsField BOM.tree F.BOM.externalReferences (Tree.pslice ExternalReference.tree) (·.externalReferences)
    (fun a y => { a with externalReferences := y }) := fun _ => ⟨_, rfl, rfl, fun _ => rfl⟩
theorem BOM.at_dependencies : IsField BOM.tree F.BOM.dependencies (Tree.pslice Dependency.tree) (·.dependencies)
    (fun a y => { a with dependencies := y }) := fun _ => ⟨_, rfl, rfl, fun _ => rfl⟩
theorem BOM.at_compositions : IsField BOM.tree F.BOM.compositions (Tree.pslice Composition.tree) (·.compositions)
    (fun a y => { a with compositions := y }) := fun _ => ⟨_, rfl, rfl, fun _ => rfl⟩
theorem BOM.at_properties : IsField BOM.tree F.BOM.properties (Tree.pslice Property.tree) (·.properties)
    (fun a y => { a with properties := y }) := fun _ => ⟨_, rfl, rfl, fun _ => rfl⟩
theorem BOM.at_vulnerabilities : IsField BOM.tree F.BOM.vulnerabilities (Tree.pslice Vulnerability.tree) (·.vulnerabilities)
    (fun a y => { a with vulnerabilities := y }) := fun _ => ⟨_, rfl, rfl, fun _ => rfl⟩
theorem BOM.at_annotations : IsField BOM.tree F.BOM.annotations (Tree.pslice Annotation.tree) (·.annotations)
    (fun a y => { a with annotations := y }) := fun _ => ⟨_, rfl, rfl, fun _ => rfl⟩
theorem BOM.at_formulation : IsField BOM.tree F.BOM.formulation (Tree.pslice Formula.tree) (·.formulation)
    (fun a y => { a with formulation := y }) := fun _ => ⟨_, rfl, rfl, fun _ => rfl⟩
theorem BOM.at_declarations : IsField BOM.tree F.BOM.declarations (Tree.opt Declarations.tree) (·.declarations)
    (fun a y => { a with declarations := y }) := fun _ => ⟨_, rfl, rfl, fun _ => rfl⟩
theorem BOM.at_definitions : IsField BOM.tree F.BOM.definitions (Tree.opt Definitions.tree) (·.definitions)
    (fun a y => { a with definitions := y }) := fun _ => ⟨_, rfl, rfl, fun _ => rfl⟩
theorem BOM.at_citations : IsField BOM.tree F.BOM.citations (Tree.pslice Citation.tree) (·.citations)
    (fun a y => { a with citations := y }) := fun _ => ⟨_, rfl, rfl, fun _ => rfl⟩
theorem BOM.at_signature : IsField BOM.tree F.BOM.signature (Tree.opt JSFSignature.tree) (·.signature)
    (fun a y => { a with signature := y }) := fun _ => ⟨_, rfl, rfl, fun _ => rfl⟩

theorem Metadata.at_timestamp : IsField Metadata.tree F.Metadata.timestamp Tree.str (·.timestamp)
    (fun a y => { a with timestamp := y }) := fun _ => ⟨_, rfl, rfl, fun _ => rfl⟩
theorem Metadata.at_lifecycles : IsField Metadata.tree F.Metadata.lifecycles (Tree.pslice Lifecycle.tree) (·.lifecycles)
    (fun a y => { a with lifecycles := y }) := fun _ => ⟨_, rfl, rfl, fun _ => rfl⟩
theorem Metadata.at_tools : IsField Metadata.tree F.Metadata.tools (Tree.opt ToolsChoice.tree) (·.tools)
    (fun a y => { a with tools := y }) := fun _ => ⟨_, rfl, rfl, fun _ => rfl⟩
theorem Metadata.at_authors : IsField Metadata.tree F.Metadata.authors (Tree.pslice OrganizationalContact.tree) (·.authors)
    (fun a y => { a with authors := y }) := fun _ => ⟨_, rfl, rfl, fun _ => rfl⟩
theorem Metadata.at_component : IsField Metadata.tree F.Metadata.component (Tree.opt Component.tree) (·.component)
    (fun a y => { a with component := y }) := fun _ => ⟨_, rfl, rfl, fun _ => rfl⟩
theorem Metadata.at_manufacture : IsField Metadata.tree F.Metadata.manufacture (Tree.opt OrganizationalEntity.tree) (·.manufacture)
    (fun a y => { a with manufacture := y }) := fun _ => ⟨_, rfl, rfl, fun _ => rfl⟩
theorem Metadata.at_manufacturer : IsField Metadata.tree F.Metadata.manufacturer (Tree.opt OrganizationalEntity.tree) (·.manufacturer)
    (fun a y => { a with manufacturer := y }) := fun _ => ⟨_, rfl, rfl, fun _ => rfl⟩
theorem Metadata.at_supplier : IsField Metadata.tree F.Metadata.supplier (Tree.opt OrganizationalEntity.tree) (·.supplier)
    (fun a y => { a with supplier := y }) := fun _ => ⟨_, rfl, rfl, fun _ => rfl⟩
theorem Metadata.at_licenses : IsField Metadata.tree F.Metadata.licenses (Tree.pslice LicenseChoice.tree) (·.licenses)
    (fun a y => { a with licenses := y }) := fun _ => ⟨_, rfl, rfl, fun _ => rfl⟩
theorem Metadata.at_properties : IsField Metadata.tree F.Metadata.properties (Tree.pslice Property.tree) (·.properties)
    (fun a y => { a with properties := y }) := fun _ => ⟨_, rfl, rfl, fun _ => rfl⟩
theorem Metadata.at_distributionConstraints : IsField Metadata.tree F.Metadata.distributionConstraints (Tree.opt DistributionConstraints.tree) (·.distributionConstraints)
    (fun a y => { a with distributionConstraints := y }) := fun _ => ⟨_, rfl, rfl, fun _ => rfl⟩

theorem Component.at_bomRef : IsField Component.tree F.Component.bomRef Tree.str (·.bomRef)
    (fun a y => { a with bomRef := y }) := fun a => ⟨_, Component.tree_eq a, rfl, fun _ => Component.tree_eq _⟩
theorem Component.at_mimeType : IsField Component.tree F.Component.mimeType Tree.str (·.mimeType)
    (fun a y => { a with mimeType := y }) := fun a => ⟨_, Component.tree_eq a, rfl, fun _ => Component.tree_eq _⟩
theorem Component.at_type : IsField Component.tree F.Component.type Tree.str (·.type)
    (fun a y => { a with type := y }) := fun a => ⟨_, Component.tree_eq a, rfl, fun _ => Component.tree_eq _⟩
theorem Component.at_supplier : IsField Component.tree F.Component.supplier (Tree.opt OrganizationalEntity.tree) (·.supplier)
    (fun a y => { a with supplier := y }) := fun a => ⟨_, Component.tree_eq a, rfl, fun _ => Component.tree_eq _⟩
theorem Component.at_manufacturer : IsField Component.tree F.Component.manufacturer (Tree.opt OrganizationalEntity.tree) (·.manufacturer)
    (fun a y => { a with manufacturer := y }) := fun a => ⟨_, Component.tree_eq a, rfl, fun _ => Component.tree_eq _⟩
theorem Component.at_author : IsField Component.tree F.Component.author Tree.str (·.author)
    (fun a y => { a with author := y }) := fun a => ⟨_, Component.tree_eq a, rfl, fun _ => Component.tree_eq _⟩
theorem Component.at_authors : IsField Component.tree F.Component.authors (Tree.pslice OrganizationalContact.tree) (·.authors)
    (fun a y => { a with authors := y }) := fun a => ⟨_, Component.tree_eq a, rfl, fun _ => Component.tree_eq _⟩
theorem Component.at_publisher : IsField Component.tree F.Component.publisher Tree.str (·.publisher)
    (fun a y => { a with publisher := y }) := fun a => ⟨_, Component.tree_eq a, rfl, fun _ => Component.tree_eq _⟩
theorem Component.at_group : IsField Component.tree F.Component.group Tree.str (·.group)
    (fun a y => { a with group := y }) := fun a => ⟨_, Component.tree_eq a, rfl, fun _ => Component.tree_eq _⟩
theorem Component.at_name : IsField Component.tree F.Component.name Tree.str (·.name)
    (fun a y => { a with name := y }) := fun a => ⟨_, Component.tree_eq a, rfl, fun _ => Component.tree_eq _⟩
theorem Component.at_version : IsField Component.tree F.Component.version Tree.str (·.version)
    (fun a y => { a with version := y }) := fun a => ⟨_, Component.tree_eq a, rfl, fun _ => Component.tree_eq _⟩
theorem Component.at_description : IsField Component.tree F.Component.description Tree.str (·.description)
    (fun a y => { a with description := y }) := fun a => ⟨_, Component.tree_eq a, rfl, fun _ => Component.tree_eq _⟩
theorem Component.at_scope : IsField Component.tree F.Component.scope Tree.str (·.scope)
    (fun a y => { a with scope := y }) := fun a => ⟨_, Component.tree_eq a, rfl, fun _ => Component.tree_eq _⟩
theorem Component.at_hashes : IsField Component.tree F.Component.hashes (Tree.pslice Hash.tree) (·.hashes)
    (fun a y => { a with hashes := y }) := fun a => ⟨_, Component.tree_eq a, rfl, fun _ => Component.tree_eq _⟩
theorem Component.at_licenses : IsField Component.tree F.Component.licenses (Tree.pslice LicenseChoice.tree) (·.licenses)
    (fun a y => { a with licenses := y }) := fun a => ⟨_, Component.tree_eq a, rfl, fun _ => Component.tree_eq _⟩
theorem Component.at_copyright : IsField Component.tree F.Component.copyright Tree.str (·.copyright)
    (fun a y => { a with copyright := y }) := fun a => ⟨_, Component.tree_eq a, rfl, fun _ => Component.tree_eq _⟩
theorem Component.at_cpe : IsField Component.tree F.Component.cpe Tree.str (·.cpe)
    (fun a y => { a with cpe := y }) := fun a => ⟨_, Component.tree_eq a, rfl, fun _ => Component.tree_eq _⟩
theorem Component.at_packageURL : IsField Component.tree F.Component.packageURL Tree.str (·.packageURL)
    (fun a y => { a with packageURL := y }) := fun a => ⟨_, Component.tree_eq a, rfl, fun _ => Component.tree_eq _⟩
theorem Component.at_omniborID : IsField Component.tree F.Component.omniborID (Tree.pslice Tree.str) (·.omniborID)
    (fun a y => { a with omniborID := y }) := fun a => ⟨_, Component.tree_eq a, rfl, fun _ => Component.tree_eq _⟩
theorem Component.at_swhid : IsField Component.tree F.Component.swhid (Tree.pslice Tree.str) (·.swhid)
    (fun a y => { a with swhid := y }) := fun a => ⟨_, Component.tree_eq a, rfl, fun _ => Component.tree_eq _⟩
theorem Component.at_swid : IsField Component.tree F.Component.swid (Tree.opt SWID.tree) (·.swid)
    (fun a y => { a with swid := y }) := fun a => ⟨_, Component.tree_eq a, rfl, fun _ => Component.tree_eq _⟩
theorem Component.at_modified : IsField Component.tree F.Component.modified (Tree.opt Tree.bool) (·.modified)
    (fun a y => { a with modified := y }) := fun a => ⟨_, Component.tree_eq a, rfl, fun _ => Component.tree_eq _⟩
theorem Component.at_pedigree : IsField Component.tree F.Component.pedigree (Tree.opt pedigreeTree) (·.pedigree)
    (fun a y => { a with pedigree := y }) := fun a => ⟨_, Component.tree_eq a, rfl, fun _ => Component.tree_eq _⟩
theorem Component.at_externalReferences : IsField Component.tree F.Component.externalReferences (Tree.pslice ExternalReference.tree) (·.externalReferences)
    (fun a y => { a with externalReferences := y }) := fun a => ⟨_, Component.tree_eq a, rfl, fun _ => Component.tree_eq _⟩
theorem Component.at_properties : IsField Component.tree F.Component.properties (Tree.pslice Property.tree) (·.properties)
    (fun a y => { a with properties := y }) := fun a => ⟨_, Component.tree_eq a, rfl, fun _ => Component.tree_eq _⟩
theorem Component.at_components : IsField Component.tree F.Component.components (Tree.pslice Component.tree) (·.components)
    (fun a y => { a with components := y }) := fun a => ⟨_, Component.tree_eq a, rfl, fun _ => Component.tree_eq _⟩
theorem Component.at_evidence : IsField Component.tree F.Component.evidence (Tree.opt Evidence.tree) (·.evidence)
    (fun a y => { a with evidence := y }) := fun a => ⟨_, Component.tree_eq a, rfl, fun _ => Component.tree_eq _⟩
theorem Component.at_releaseNotes : IsField Component.tree F.Component.releaseNotes (Tree.opt ReleaseNotes.tree) (·.releaseNotes)
    (fun a y => { a with releaseNotes := y }) := fun a => ⟨_, Component.tree_eq a, rfl, fun _ => Component.tree_eq _⟩
theorem Component.at_modelCard : IsField Component.tree F.Component.modelCard (Tree.opt MLModelCard.tree) (·.modelCard)
    (fun a y => { a with modelCard := y }) := fun a => ⟨_, Component.tree_eq a, rfl, fun _ => Component.tree_eq _⟩
theorem Component.at_data : IsField Component.tree F.Component.data (Tree.pslice ComponentData.tree) (·.data)
    (fun a y => { a with data := y }) := fun a => ⟨_, Component.tree_eq a, rfl, fun _ => Component.tree_eq _⟩
theorem Component.at_cryptoProperties : IsField Component.tree F.Component.cryptoProperties (Tree.opt CryptoProperties.tree) (·.cryptoProperties)
    (fun a y => { a with cryptoProperties := y }) := fun a => ⟨_, Component.tree_eq a, rfl, fun _ => Component.tree_eq _⟩
theorem Component.at_tags : IsField Component.tree F.Component.tags (Tree.pslice Tree.str) (·.tags)
    (fun a y => { a with tags := y }) := fun a => ⟨_, Component.tree_eq a, rfl, fun _ => Component.tree_eq _⟩
theorem Component.at_isExternal : IsField Component.tree F.Component.isExternal (Tree.opt Tree.bool) (·.isExternal)
    (fun a y => { a with isExternal := y }) := fun a => ⟨_, Component.tree_eq a, rfl, fun _ => Component.tree_eq _⟩
theorem Component.at_patentAssertions : IsField Component.tree F.Component.patentAssertions (Tree.pslice PatentAssertion.tree) (·.patentAssertions)
    (fun a y => { a with patentAssertions := y }) := fun a => ⟨_, Component.tree_eq a, rfl, fun _ => Component.tree_eq _⟩
theorem Component.at_versionRange : IsField Component.tree F.Component.versionRange Tree.str (·.versionRange)
    (fun a y => { a with versionRange := y }) := fun a => ⟨_, Component.tree_eq a, rfl, fun _ => Component.tree_eq _⟩
theorem Component.at_signature : IsField Component.tree F.Component.signature (Tree.opt JSFSignature.tree) (·.signature)
    (fun a y => { a with signature := y }) := fun a => ⟨_, Component.tree_eq a, rfl, fun _ => Component.tree_eq _⟩

theorem Pedigree.at_ancestors : IsField pedigreeTree F.Pedigree.ancestors (Tree.pslice Component.tree) (·.ancestors)
    (fun a y => { a with ancestors := y }) := fun a => ⟨_, Pedigree.tree_eq a, rfl, fun _ => Pedigree.tree_eq _⟩
theorem Pedigree.at_descendants : IsField pedigreeTree F.Pedigree.descendants (Tree.pslice Component.tree) (·.descendants)
    (fun a y => { a with descendants := y }) := fun a => ⟨_, Pedigree.tree_eq a, rfl, fun _ => Pedigree.tree_eq _⟩
theorem Pedigree.at_variants : IsField pedigreeTree F.Pedigree.variants (Tree.pslice Component.tree) (·.variants)
    (fun a y => { a with variants := y }) := fun a => ⟨_, Pedigree.tree_eq a, rfl, fun _ => Pedigree.tree_eq _⟩
theorem Pedigree.at_commits : IsField pedigreeTree F.Pedigree.commits (Tree.pslice Commit.tree) (·.commits)
    (fun a y => { a with commits := y }) := fun a => ⟨_, Pedigree.tree_eq a, rfl, fun _ => Pedigree.tree_eq _⟩
theorem Pedigree.at_patches : IsField pedigreeTree F.Pedigree.patches (Tree.pslice Patch.tree) (·.patches)
    (fun a y => { a with patches := y }) := fun a => ⟨_, Pedigree.tree_eq a, rfl, fun _ => Pedigree.tree_eq _⟩
theorem Pedigree.at_notes : IsField pedigreeTree F.Pedigree.notes Tree.str (·.notes)
    (fun a y => { a with notes := y }) := fun a => ⟨_, Pedigree.tree_eq a, rfl, fun _ => Pedigree.tree_eq _⟩

theorem Evidence.at_identity : IsField Evidence.tree F.Evidence.identity (Tree.opt EvidenceIdentityChoice.tree) (·.identity)
    (fun a y => { a with identity := y }) := fun _ => ⟨_, rfl, rfl, fun _ => rfl⟩
theorem Evidence.at_occurrences : IsField Evidence.tree F.Evidence.occurrences (Tree.pslice EvidenceOccurrence.tree) (·.occurrences)
    (fun a y => { a with occurrences := y }) := fun _ => ⟨_, rfl, rfl, fun _ => rfl⟩
theorem Evidence.at_callstack : IsField Evidence.tree F.Evidence.callstack (Tree.opt Callstack.tree) (·.callstack)
    (fun a y => { a with callstack := y }) := fun _ => ⟨_, rfl, rfl, fun _ => rfl⟩
theorem Evidence.at_licenses : IsField Evidence.tree F.Evidence.licenses (Tree.pslice LicenseChoice.tree) (·.licenses)
    (fun a y => { a with licenses := y }) := fun _ => ⟨_, rfl, rfl, fun _ => rfl⟩
theorem Evidence.at_copyright : IsField Evidence.tree F.Evidence.copyright (Tree.pslice Copyright.tree) (·.copyright)
    (fun a y => { a with copyright := y }) := fun _ => ⟨_, rfl, rfl, fun _ => rfl⟩

theorem EvidenceIdentityChoice.at_identity : IsField EvidenceIdentityChoice.tree F.EvidenceIdentityChoice.identity (Tree.opt EvidenceIdentity.tree) (·.identity)
    (fun a y => { a with identity := y }) := fun _ => ⟨_, rfl, rfl, fun _ => rfl⟩
theorem EvidenceIdentityChoice.at_identities : IsField EvidenceIdentityChoice.tree F.EvidenceIdentityChoice.identities (Tree.pslice EvidenceIdentity.tree) (·.identities)
    (fun a y => { a with identities := y }) := fun _ => ⟨_, rfl, rfl, fun _ => rfl⟩

theorem EvidenceIdentity.at_field : IsField EvidenceIdentity.tree F.EvidenceIdentity.field Tree.str (·.field)
    (fun a y => { a with field := y }) := fun _ => ⟨_, rfl, rfl, fun _ => rfl⟩
theorem EvidenceIdentity.at_confidence : IsField EvidenceIdentity.tree F.EvidenceIdentity.confidence (Tree.opt Tree.f32) (·.confidence)
    (fun a y => { a with confidence := y }) := fun _ => ⟨_, rfl, rfl, fun _ => rfl⟩
theorem EvidenceIdentity.at_concludedValue : IsField EvidenceIdentity.tree F.EvidenceIdentity.concludedValue Tree.str (·.concludedValue)
    (fun a y => { a with concludedValue := y }) := fun _ => ⟨_, rfl, rfl, fun _ => rfl⟩
theorem EvidenceIdentity.at_methods : IsField EvidenceIdentity.tree F.EvidenceIdentity.methods (Tree.pslice EvidenceIdentityMethod.tree) (·.methods)
    (fun a y => { a with methods := y }) := fun _ => ⟨_, rfl, rfl, fun _ => rfl⟩
theorem EvidenceIdentity.at_tools : IsField EvidenceIdentity.tree F.EvidenceIdentity.tools (Tree.pslice Tree.ref) (·.tools)
    (fun a y => { a with tools := y }) := fun _ => ⟨_, rfl, rfl, fun _ => rfl⟩

theorem EvidenceOccurrence.at_bomRef : IsField EvidenceOccurrence.tree F.EvidenceOccurrence.bomRef Tree.str (·.bomRef)
    (fun a y => { a with bomRef := y }) := fun _ => ⟨_, rfl, rfl, fun _ => rfl⟩
theorem EvidenceOccurrence.at_location : IsField EvidenceOccurrence.tree F.EvidenceOccurrence.location Tree.str (·.location)
    (fun a y => { a with location := y }) := fun _ => ⟨_, rfl, rfl, fun _ => rfl⟩
theorem EvidenceOccurrence.at_line : IsField EvidenceOccurrence.tree F.EvidenceOccurrence.line (Tree.opt Tree.int) (·.line)
    (fun a y => { a with line := y }) := fun _ => ⟨_, rfl, rfl, fun _ => rfl⟩
theorem EvidenceOccurrence.at_offset : IsField EvidenceOccurrence.tree F.EvidenceOccurrence.offset (Tree.opt Tree.int) (·.offset)
    (fun a y => { a with offset := y }) := fun _ => ⟨_, rfl, rfl, fun _ => rfl⟩
theorem EvidenceOccurrence.at_symbol : IsField EvidenceOccurrence.tree F.EvidenceOccurrence.symbol Tree.str (·.symbol)
    (fun a y => { a with symbol := y }) := fun _ => ⟨_, rfl, rfl, fun _ => rfl⟩
theorem EvidenceOccurrence.at_additionalContext : IsField EvidenceOccurrence.tree F.EvidenceOccurrence.additionalContext Tree.str (·.additionalContext)
    (fun a y => { a with additionalContext := y }) := fun _ => ⟨_, rfl, rfl, fun _ => rfl⟩

theorem Composition.at_bomRef : IsField Composition.tree F.Composition.bomRef Tree.str (·.bomRef)
    (fun a y => { a with bomRef := y }) := fun _ => ⟨_, rfl, rfl, fun _ => rfl⟩
theorem Composition.at_aggregate : IsField Composition.tree F.Composition.aggregate Tree.str (·.aggregate)
    (fun a y => { a with aggregate := y }) := fun _ => ⟨_, rfl, rfl, fun _ => rfl⟩
theorem Composition.at_assemblies : IsField Composition.tree F.Composition.assemblies (Tree.pslice Tree.ref) (·.assemblies)
    (fun a y => { a with assemblies := y }) := fun _ => ⟨_, rfl, rfl, fun _ => rfl⟩
theorem Composition.at_dependencies : IsField Composition.tree F.Composition.dependencies (Tree.pslice Tree.ref) (·.dependencies)
    (fun a y => { a with dependencies := y }) := fun _ => ⟨_, rfl, rfl, fun _ => rfl⟩
theorem Composition.at_vulnerabilities : IsField Composition.tree F.Composition.vulnerabilities (Tree.pslice Tree.ref) (·.vulnerabilities)
    (fun a y => { a with vulnerabilities := y }) := fun _ => ⟨_, rfl, rfl, fun _ => rfl⟩
theorem Composition.at_signature : IsField Composition.tree F.Composition.signature (Tree.opt JSFSignature.tree) (·.signature)
    (fun a y => { a with signature := y }) := fun _ => ⟨_, rfl, rfl, fun _ => rfl⟩

theorem DataClassification.at_flow : IsField DataClassification.tree F.DataClassification.flow Tree.str (·.flow)
    (fun a y => { a with flow := y }) := fun _ => ⟨_, rfl, rfl, fun _ => rfl⟩
theorem DataClassification.at_classification : IsField DataClassification.tree F.DataClassification.classification Tree.str (·.classification)
    (fun a y => { a with classification := y }) := fun _ => ⟨_, rfl, rfl, fun _ => rfl⟩
theorem DataClassification.at_name : IsField DataClassification.tree F.DataClassification.name Tree.str (·.name)
    (fun a y => { a with name := y }) := fun _ => ⟨_, rfl, rfl, fun _ => rfl⟩
theorem DataClassification.at_description : IsField DataClassification.tree F.DataClassification.description Tree.str (·.description)
    (fun a y => { a with description := y }) := fun _ => ⟨_, rfl, rfl, fun _ => rfl⟩
theorem DataClassification.at_governance : IsField DataClassification.tree F.DataClassification.governance (Tree.opt DataGovernance.tree) (·.governance)
    (fun a y => { a with governance := y }) := fun _ => ⟨_, rfl, rfl, fun _ => rfl⟩
theorem DataClassification.at_source : IsField DataClassification.tree F.DataClassification.source (Tree.pslice Tree.str) (·.source)
    (fun a y => { a with source := y }) := fun _ => ⟨_, rfl, rfl, fun _ => rfl⟩
theorem DataClassification.at_destination : IsField DataClassification.tree F.DataClassification.destination (Tree.pslice Tree.str) (·.destination)
    (fun a y => { a with destination := y }) := fun _ => ⟨_, rfl, rfl, fun _ => rfl⟩

theorem ExternalReference.at_url : IsField ExternalReference.tree F.ExternalReference.url Tree.str (·.url)
    (fun a y => { a with url := y }) := fun _ => ⟨_, rfl, rfl, fun _ => rfl⟩
theorem ExternalReference.at_comment : IsField ExternalReference.tree F.ExternalReference.comment Tree.str (·.comment)
    (fun a y => { a with comment := y }) := fun _ => ⟨_, rfl, rfl, fun _ => rfl⟩
theorem ExternalReference.at_hashes : IsField ExternalReference.tree F.ExternalReference.hashes (Tree.pslice Hash.tree) (·.hashes)
    (fun a y => { a with hashes := y }) := fun _ => ⟨_, rfl, rfl, fun _ => rfl⟩
theorem ExternalReference.at_type : IsField ExternalReference.tree F.ExternalReference.type Tree.str (·.type)
    (fun a y => { a with type := y }) := fun _ => ⟨_, rfl, rfl, fun _ => rfl⟩
theorem ExternalReference.at_properties : IsField ExternalReference.tree F.ExternalReference.properties (Tree.pslice Property.tree) (·.properties)
    (fun a y => { a with properties := y }) := fun _ => ⟨_, rfl, rfl, fun _ => rfl⟩

theorem Hash.at_algorithm : IsField Hash.tree F.Hash.algorithm Tree.str (·.algorithm)
    (fun a y => { a with algorithm := y }) := fun _ => ⟨_, rfl, rfl, fun _ => rfl⟩
theorem Hash.at_value : IsField Hash.tree F.Hash.value Tree.str (·.value)
    (fun a y => { a with value := y }) := fun _ => ⟨_, rfl, rfl, fun _ => rfl⟩

theorem LicenseChoice.at_license : IsField LicenseChoice.tree F.LicenseChoice.license (Tree.opt License.tree) (·.license)
    (fun a y => { a with license := y }) := fun _ => ⟨_, rfl, rfl, fun _ => rfl⟩
theorem LicenseChoice.at_expression : IsField LicenseChoice.tree F.LicenseChoice.expression Tree.str (·.expression)
    (fun a y => { a with expression := y }) := fun _ => ⟨_, rfl, rfl, fun _ => rfl⟩
theorem LicenseChoice.at_expressionDetails : IsField LicenseChoice.tree F.LicenseChoice.expressionDetails (Tree.pslice LicenseExpressionDetail.tree) (·.expressionDetails)
    (fun a y => { a with expressionDetails := y }) := fun _ => ⟨_, rfl, rfl, fun _ => rfl⟩
theorem LicenseChoice.at_acknowledgement : IsField LicenseChoice.tree F.LicenseChoice.acknowledgement (Tree.opt Tree.str) (·.acknowledgement)
    (fun a y => { a with acknowledgement := y }) := fun _ => ⟨_, rfl, rfl, fun _ => rfl⟩
theorem LicenseChoice.at_bomRef : IsField LicenseChoice.tree F.LicenseChoice.bomRef Tree.str (·.bomRef)
    (fun a y => { a with bomRef := y }) := fun _ => ⟨_, rfl, rfl, fun _ => rfl⟩
theorem LicenseChoice.at_licensing : IsField LicenseChoice.tree F.LicenseChoice.licensing (Tree.opt Licensing.tree) (·.licensing)
    (fun a y => { a with licensing := y }) := fun _ => ⟨_, rfl, rfl, fun _ => rfl⟩
theorem LicenseChoice.at_properties : IsField LicenseChoice.tree F.LicenseChoice.properties (Tree.pslice Property.tree) (·.properties)
    (fun a y => { a with properties := y }) := fun _ => ⟨_, rfl, rfl, fun _ => rfl⟩

theorem License.at_bomRef : IsField License.tree F.License.bomRef Tree.str (·.bomRef)
    (fun a y => { a with bomRef := y }) := fun _ => ⟨_, rfl, rfl, fun _ => rfl⟩
theorem License.at_id : IsField License.tree F.License.id Tree.str (·.id)
    (fun a y => { a with id := y }) := fun _ => ⟨_, rfl, rfl, fun _ => rfl⟩
theorem License.at_name : IsField License.tree F.License.name Tree.str (·.name)
    (fun a y => { a with name := y }) := fun _ => ⟨_, rfl, rfl, fun _ => rfl⟩
theorem License.at_acknowledgement : IsField License.tree F.License.acknowledgement Tree.str (·.acknowledgement)
    (fun a y => { a with acknowledgement := y }) := fun _ => ⟨_, rfl, rfl, fun _ => rfl⟩
theorem License.at_text : IsField License.tree F.License.text (Tree.opt AttachedText.tree) (·.text)
    (fun a y => { a with text := y }) := fun _ => ⟨_, rfl, rfl, fun _ => rfl⟩
theorem License.at_url : IsField License.tree F.License.url Tree.str (·.url)
    (fun a y => { a with url := y }) := fun _ => ⟨_, rfl, rfl, fun _ => rfl⟩
theorem License.at_licensing : IsField License.tree F.License.licensing (Tree.opt Licensing.tree) (·.licensing)
    (fun a y => { a with licensing := y }) := fun _ => ⟨_, rfl, rfl, fun _ => rfl⟩
theorem License.at_properties : IsField License.tree F.License.properties (Tree.pslice Property.tree) (·.properties)
    (fun a y => { a with properties := y }) := fun _ => ⟨_, rfl, rfl, fun _ => rfl⟩

theorem Licensing.at_altIDs : IsField Licensing.tree F.Licensing.altIDs (Tree.pslice Tree.str) (·.altIDs)
    (fun a y => { a with altIDs := y }) := fun _ => ⟨_, rfl, rfl, fun _ => rfl⟩
theorem Licensing.at_licensor : IsField Licensing.tree F.Licensing.licensor (Tree.opt OrganizationalEntityOrContact.tree) (·.licensor)
    (fun a y => { a with licensor := y }) := fun _ => ⟨_, rfl, rfl, fun _ => rfl⟩
theorem Licensing.at_licensee : IsField Licensing.tree F.Licensing.licensee (Tree.opt OrganizationalEntityOrContact.tree) (·.licensee)
    (fun a y => { a with licensee := y }) := fun _ => ⟨_, rfl, rfl, fun _ => rfl⟩
theorem Licensing.at_purchaser : IsField Licensing.tree F.Licensing.purchaser (Tree.opt OrganizationalEntityOrContact.tree) (·.purchaser)
    (fun a y => { a with purchaser := y }) := fun _ => ⟨_, rfl, rfl, fun _ => rfl⟩
theorem Licensing.at_purchaseOrder : IsField Licensing.tree F.Licensing.purchaseOrder Tree.str (·.purchaseOrder)
    (fun a y => { a with purchaseOrder := y }) := fun _ => ⟨_, rfl, rfl, fun _ => rfl⟩
theorem Licensing.at_licenseTypes : IsField Licensing.tree F.Licensing.licenseTypes (Tree.pslice Tree.str) (·.licenseTypes)
    (fun a y => { a with licenseTypes := y }) := fun _ => ⟨_, rfl, rfl, fun _ => rfl⟩
theorem Licensing.at_lastRenewal : IsField Licensing.tree F.Licensing.lastRenewal Tree.str (·.lastRenewal)
    (fun a y => { a with lastRenewal := y }) := fun _ => ⟨_, rfl, rfl, fun _ => rfl⟩
theorem Licensing.at_expiration : IsField Licensing.tree F.Licensing.expiration Tree.str (·.expiration)
    (fun a y => { a with expiration := y }) := fun _ => ⟨_, rfl, rfl, fun _ => rfl⟩

theorem OrganizationalEntityOrContact.at_organization : IsField OrganizationalEntityOrContact.tree F.OrganizationalEntityOrContact.organization (Tree.opt OrganizationalEntity.tree) (·.organization)
    (fun a y => { a with organization := y }) := fun _ => ⟨_, rfl, rfl, fun _ => rfl⟩
theorem OrganizationalEntityOrContact.at_individual : IsField OrganizationalEntityOrContact.tree F.OrganizationalEntityOrContact.individual (Tree.opt OrganizationalContact.tree) (·.individual)
    (fun a y => { a with individual := y }) := fun _ => ⟨_, rfl, rfl, fun _ => rfl⟩

theorem OrganizationalEntity.at_bomRef : IsField OrganizationalEntity.tree F.OrganizationalEntity.bomRef Tree.str (·.bomRef)
    (fun a y => { a with bomRef := y }) := fun _ => ⟨_, rfl, rfl, fun _ => rfl⟩
theorem OrganizationalEntity.at_name : IsField OrganizationalEntity.tree F.OrganizationalEntity.name Tree.str (·.name)
    (fun a y => { a with name := y }) := fun _ => ⟨_, rfl, rfl, fun _ => rfl⟩
theorem OrganizationalEntity.at_address : IsField OrganizationalEntity.tree F.OrganizationalEntity.address (Tree.opt PostalAddress.tree) (·.address)
    (fun a y => { a with address := y }) := fun _ => ⟨_, rfl, rfl, fun _ => rfl⟩
theorem OrganizationalEntity.at_url : IsField OrganizationalEntity.tree F.OrganizationalEntity.url (Tree.pslice Tree.str) (·.url)
    (fun a y => { a with url := y }) := fun _ => ⟨_, rfl, rfl, fun _ => rfl⟩
theorem OrganizationalEntity.at_contact : IsField OrganizationalEntity.tree F.OrganizationalEntity.contact (Tree.pslice OrganizationalContact.tree) (·.contact)
    (fun a y => { a with contact := y }) := fun _ => ⟨_, rfl, rfl, fun _ => rfl⟩

theorem OrganizationalContact.at_bomRef : IsField OrganizationalContact.tree F.OrganizationalContact.bomRef Tree.str (·.bomRef)
    (fun a y => { a with bomRef := y }) := fun _ => ⟨_, rfl, rfl, fun _ => rfl⟩
theorem OrganizationalContact.at_name : IsField OrganizationalContact.tree F.OrganizationalContact.name Tree.str (·.name)
    (fun a y => { a with name := y }) := fun _ => ⟨_, rfl, rfl, fun _ => rfl⟩
theorem OrganizationalContact.at_email : IsField OrganizationalContact.tree F.OrganizationalContact.email Tree.str (·.email)
    (fun a y => { a with email := y }) := fun _ => ⟨_, rfl, rfl, fun _ => rfl⟩
theorem OrganizationalContact.at_phone : IsField OrganizationalContact.tree F.OrganizationalContact.phone Tree.str (·.phone)
    (fun a y => { a with phone := y }) := fun _ => ⟨_, rfl, rfl, fun _ => rfl⟩

theorem MLModelCard.at_bomRef : IsField MLModelCard.tree F.MLModelCard.bomRef Tree.str (·.bomRef)
    (fun a y => { a with bomRef := y }) := fun _ => ⟨_, rfl, rfl, fun _ => rfl⟩
theorem MLModelCard.at_modelParameters : IsField MLModelCard.tree F.MLModelCard.modelParameters (Tree.opt MLModelParameters.tree) (·.modelParameters)
    (fun a y => { a with modelParameters := y }) := fun _ => ⟨_, rfl, rfl, fun _ => rfl⟩
theorem MLModelCard.at_quantitativeAnalysis : IsField MLModelCard.tree F.MLModelCard.quantitativeAnalysis (Tree.opt MLQuantitativeAnalysis.tree) (·.quantitativeAnalysis)
    (fun a y => { a with quantitativeAnalysis := y }) := fun _ => ⟨_, rfl, rfl, fun _ => rfl⟩
theorem MLModelCard.at_considerations : IsField MLModelCard.tree F.MLModelCard.considerations (Tree.opt MLModelCardConsiderations.tree) (·.considerations)
    (fun a y => { a with considerations := y }) := fun _ => ⟨_, rfl, rfl, fun _ => rfl⟩

theorem MLModelCardConsiderations.at_users : IsField MLModelCardConsiderations.tree F.MLModelCardConsiderations.users (Tree.pslice Tree.str) (·.users)
    (fun a y => { a with users := y }) := fun _ => ⟨_, rfl, rfl, fun _ => rfl⟩
theorem MLModelCardConsiderations.at_useCases : IsField MLModelCardConsiderations.tree F.MLModelCardConsiderations.useCases (Tree.pslice Tree.str) (·.useCases)
    (fun a y => { a with useCases := y }) := fun _ => ⟨_, rfl, rfl, fun _ => rfl⟩
theorem MLModelCardConsiderations.at_technicalLimitations : IsField MLModelCardConsiderations.tree F.MLModelCardConsiderations.technicalLimitations (Tree.pslice Tree.str) (·.technicalLimitations)
    (fun a y => { a with technicalLimitations := y }) := fun _ => ⟨_, rfl, rfl, fun _ => rfl⟩
theorem MLModelCardConsiderations.at_performanceTradeoffs : IsField MLModelCardConsiderations.tree F.MLModelCardConsiderations.performanceTradeoffs (Tree.pslice Tree.str) (·.performanceTradeoffs)
    (fun a y => { a with performanceTradeoffs := y }) := fun _ => ⟨_, rfl, rfl, fun _ => rfl⟩
theorem MLModelCardConsiderations.at_ethicalConsiderations : IsField MLModelCardConsiderations.tree F.MLModelCardConsiderations.ethicalConsiderations (Tree.pslice MLModelCardEthicalConsideration.tree) (·.ethicalConsiderations)
    (fun a y => { a with ethicalConsiderations := y }) := fun _ => ⟨_, rfl, rfl, fun _ => rfl⟩
theorem MLModelCardConsiderations.at_environmentalConsiderations : IsField MLModelCardConsiderations.tree F.MLModelCardConsiderations.environmentalConsiderations (Tree.opt MLModelCardEnvironmentalConsiderations.tree) (·.environmentalConsiderations)
    (fun a y => { a with environmentalConsiderations := y }) := fun _ => ⟨_, rfl, rfl, fun _ => rfl⟩
theorem MLModelCardConsiderations.at_fairnessAssessments : IsField MLModelCardConsiderations.tree F.MLModelCardConsiderations.fairnessAssessments (Tree.pslice MLModelCardFairnessAssessment.tree) (·.fairnessAssessments)
    (fun a y => { a with fairnessAssessments := y }) := fun _ => ⟨_, rfl, rfl, fun _ => rfl⟩

theorem CryptoProperties.at_assetType : IsField CryptoProperties.tree F.CryptoProperties.assetType Tree.str (·.assetType)
    (fun a y => { a with assetType := y }) := fun _ => ⟨_, rfl, rfl, fun _ => rfl⟩
theorem CryptoProperties.at_algorithmProperties : IsField CryptoProperties.tree F.CryptoProperties.algorithmProperties (Tree.opt CryptoAlgorithmProperties.tree) (·.algorithmProperties)
    (fun a y => { a with algorithmProperties := y }) := fun _ => ⟨_, rfl, rfl, fun _ => rfl⟩
theorem CryptoProperties.at_certificateProperties : IsField CryptoProperties.tree F.CryptoProperties.certificateProperties (Tree.opt CertificateProperties.tree) (·.certificateProperties)
    (fun a y => { a with certificateProperties := y }) := fun _ => ⟨_, rfl, rfl, fun _ => rfl⟩
theorem CryptoProperties.at_relatedCryptoMaterialProperties : IsField CryptoProperties.tree F.CryptoProperties.relatedCryptoMaterialProperties (Tree.opt RelatedCryptoMaterialProperties.tree) (·.relatedCryptoMaterialProperties)
    (fun a y => { a with relatedCryptoMaterialProperties := y }) := fun _ => ⟨_, rfl, rfl, fun _ => rfl⟩
theorem CryptoProperties.at_protocolProperties : IsField CryptoProperties.tree F.CryptoProperties.protocolProperties (Tree.opt CryptoProtocolProperties.tree) (·.protocolProperties)
    (fun a y => { a with protocolProperties := y }) := fun _ => ⟨_, rfl, rfl, fun _ => rfl⟩
theorem CryptoProperties.at_oid : IsField CryptoProperties.tree F.CryptoProperties.oid Tree.str (·.oid)
    (fun a y => { a with oid := y }) := fun _ => ⟨_, rfl, rfl, fun _ => rfl⟩

theorem CryptoAlgorithmProperties.at_primitive : IsField CryptoAlgorithmProperties.tree F.CryptoAlgorithmProperties.primitive Tree.str (·.primitive)
    (fun a y => { a with primitive := y }) := fun _ => ⟨_, rfl, rfl, fun _ => rfl⟩
theorem CryptoAlgorithmProperties.at_parameterSetIdentifier : IsField CryptoAlgorithmProperties.tree F.CryptoAlgorithmProperties.parameterSetIdentifier Tree.str (·.parameterSetIdentifier)
    (fun a y => { a with parameterSetIdentifier := y }) := fun _ => ⟨_, rfl, rfl, fun _ => rfl⟩
theorem CryptoAlgorithmProperties.at_algorithmFamily : IsField CryptoAlgorithmProperties.tree F.CryptoAlgorithmProperties.algorithmFamily Tree.str (·.algorithmFamily)
    (fun a y => { a with algorithmFamily := y }) := fun _ => ⟨_, rfl, rfl, fun _ => rfl⟩
theorem CryptoAlgorithmProperties.at_curve : IsField CryptoAlgorithmProperties.tree F.CryptoAlgorithmProperties.curve Tree.str (·.curve)
    (fun a y => { a with curve := y }) := fun _ => ⟨_, rfl, rfl, fun _ => rfl⟩
theorem CryptoAlgorithmProperties.at_ellipticCurve : IsField CryptoAlgorithmProperties.tree F.CryptoAlgorithmProperties.ellipticCurve Tree.str (·.ellipticCurve)
    (fun a y => { a with ellipticCurve := y }) := fun _ => ⟨_, rfl, rfl, fun _ => rfl⟩
theorem CryptoAlgorithmProperties.at_executionEnvironment : IsField CryptoAlgorithmProperties.tree F.CryptoAlgorithmProperties.executionEnvironment Tree.str (·.executionEnvironment)
    (fun a y => { a with executionEnvironment := y }) := fun _ => ⟨_, rfl, rfl, fun _ => rfl⟩
theorem CryptoAlgorithmProperties.at_implementationPlatform : IsField CryptoAlgorithmProperties.tree F.CryptoAlgorithmProperties.implementationPlatform Tree.str (·.implementationPlatform)
    (fun a y => { a with implementationPlatform := y }) := fun _ => ⟨_, rfl, rfl, fun _ => rfl⟩
theorem CryptoAlgorithmProperties.at_certificationLevel : IsField CryptoAlgorithmProperties.tree F.CryptoAlgorithmProperties.certificationLevel (Tree.pslice Tree.str) (·.certificationLevel)
    (fun a y => { a with certificationLevel := y }) := fun _ => ⟨_, rfl, rfl, fun _ => rfl⟩
theorem CryptoAlgorithmProperties.at_mode : IsField CryptoAlgorithmProperties.tree F.CryptoAlgorithmProperties.mode Tree.str (·.mode)
    (fun a y => { a with mode := y }) := fun _ => ⟨_, rfl, rfl, fun _ => rfl⟩
theorem CryptoAlgorithmProperties.at_padding : IsField CryptoAlgorithmProperties.tree F.CryptoAlgorithmProperties.padding Tree.str (·.padding)
    (fun a y => { a with padding := y }) := fun _ => ⟨_, rfl, rfl, fun _ => rfl⟩
theorem CryptoAlgorithmProperties.at_cryptoFunctions : IsField CryptoAlgorithmProperties.tree F.CryptoAlgorithmProperties.cryptoFunctions (Tree.pslice Tree.str) (·.cryptoFunctions)
    (fun a y => { a with cryptoFunctions := y }) := fun _ => ⟨_, rfl, rfl, fun _ => rfl⟩
theorem CryptoAlgorithmProperties.at_classicalSecurityLevel : IsField CryptoAlgorithmProperties.tree F.CryptoAlgorithmProperties.classicalSecurityLevel (Tree.opt Tree.int) (·.classicalSecurityLevel)
    (fun a y => { a with classicalSecurityLevel := y }) := fun _ => ⟨_, rfl, rfl, fun _ => rfl⟩
theorem CryptoAlgorithmProperties.at_nistQuantumSecurityLevel : IsField CryptoAlgorithmProperties.tree F.CryptoAlgorithmProperties.nistQuantumSecurityLevel (Tree.opt Tree.int) (·.nistQuantumSecurityLevel)
    (fun a y => { a with nistQuantumSecurityLevel := y }) := fun _ => ⟨_, rfl, rfl, fun _ => rfl⟩

theorem CertificateProperties.at_serialNumber : IsField CertificateProperties.tree F.CertificateProperties.serialNumber Tree.str (·.serialNumber)
    (fun a y => { a with serialNumber := y }) := fun _ => ⟨_, rfl, rfl, fun _ => rfl⟩
theorem CertificateProperties.at_subjectName : IsField CertificateProperties.tree F.CertificateProperties.subjectName Tree.str (·.subjectName)
    (fun a y => { a with subjectName := y }) := fun _ => ⟨_, rfl, rfl, fun _ => rfl⟩
theorem CertificateProperties.at_issuerName : IsField CertificateProperties.tree F.CertificateProperties.issuerName Tree.str (·.issuerName)
    (fun a y => { a with issuerName := y }) := fun _ => ⟨_, rfl, rfl, fun _ => rfl⟩
theorem CertificateProperties.at_notValidBefore : IsField CertificateProperties.tree F.CertificateProperties.notValidBefore Tree.str (·.notValidBefore)
    (fun a y => { a with notValidBefore := y }) := fun _ => ⟨_, rfl, rfl, fun _ => rfl⟩
theorem CertificateProperties.at_notValidAfter : IsField CertificateProperties.tree F.CertificateProperties.notValidAfter Tree.str (·.notValidAfter)
    (fun a y => { a with notValidAfter := y }) := fun _ => ⟨_, rfl, rfl, fun _ => rfl⟩
theorem CertificateProperties.at_signatureAlgorithmRef : IsField CertificateProperties.tree F.CertificateProperties.signatureAlgorithmRef Tree.ref (·.signatureAlgorithmRef)
    (fun a y => { a with signatureAlgorithmRef := y }) := fun _ => ⟨_, rfl, rfl, fun _ => rfl⟩
theorem CertificateProperties.at_subjectPublicKeyRef : IsField CertificateProperties.tree F.CertificateProperties.subjectPublicKeyRef Tree.ref (·.subjectPublicKeyRef)
    (fun a y => { a with subjectPublicKeyRef := y }) := fun _ => ⟨_, rfl, rfl, fun _ => rfl⟩
theorem CertificateProperties.at_certificateFormat : IsField CertificateProperties.tree F.CertificateProperties.certificateFormat Tree.str (·.certificateFormat)
    (fun a y => { a with certificateFormat := y }) := fun _ => ⟨_, rfl, rfl, fun _ => rfl⟩
theorem CertificateProperties.at_certificateExtension : IsField CertificateProperties.tree F.CertificateProperties.certificateExtension Tree.str (·.certificateExtension)
    (fun a y => { a with certificateExtension := y }) := fun _ => ⟨_, rfl, rfl, fun _ => rfl⟩
theorem CertificateProperties.at_certificateFileExtension : IsField CertificateProperties.tree F.CertificateProperties.certificateFileExtension Tree.str (·.certificateFileExtension)
    (fun a y => { a with certificateFileExtension := y }) := fun _ => ⟨_, rfl, rfl, fun _ => rfl⟩
theorem CertificateProperties.at_fingerprint : IsField CertificateProperties.tree F.CertificateProperties.fingerprint (Tree.opt Hash.tree) (·.fingerprint)
    (fun a y => { a with fingerprint := y }) := fun _ => ⟨_, rfl, rfl, fun _ => rfl⟩
theorem CertificateProperties.at_certificateState : IsField CertificateProperties.tree F.CertificateProperties.certificateState (Tree.pslice CertificateState.tree) (·.certificateState)
    (fun a y => { a with certificateState := y }) := fun _ => ⟨_, rfl, rfl, fun _ => rfl⟩
theorem CertificateProperties.at_certificateExtensions : IsField CertificateProperties.tree F.CertificateProperties.certificateExtensions (Tree.pslice CertificateExtension.tree) (·.certificateExtensions)
    (fun a y => { a with certificateExtensions := y }) := fun _ => ⟨_, rfl, rfl, fun _ => rfl⟩
theorem CertificateProperties.at_relatedCryptographicAssets : IsField CertificateProperties.tree F.CertificateProperties.relatedCryptographicAssets (Tree.pslice RelatedCryptographicAsset.tree) (·.relatedCryptographicAssets)
    (fun a y => { a with relatedCryptographicAssets := y }) := fun _ => ⟨_, rfl, rfl, fun _ => rfl⟩
theorem CertificateProperties.at_creationDate : IsField CertificateProperties.tree F.CertificateProperties.creationDate Tree.str (·.creationDate)
    (fun a y => { a with creationDate := y }) := fun _ => ⟨_, rfl, rfl, fun _ => rfl⟩
theorem CertificateProperties.at_activationDate : IsField CertificateProperties.tree F.CertificateProperties.activationDate Tree.str (·.activationDate)
    (fun a y => { a with activationDate := y }) := fun _ => ⟨_, rfl, rfl, fun _ => rfl⟩
theorem CertificateProperties.at_deactivationDate : IsField CertificateProperties.tree F.CertificateProperties.deactivationDate Tree.str (·.deactivationDate)
    (fun a y => { a with deactivationDate := y }) := fun _ => ⟨_, rfl, rfl, fun _ => rfl⟩
theorem CertificateProperties.at_revocationDate : IsField CertificateProperties.tree F.CertificateProperties.revocationDate Tree.str (·.revocationDate)
    (fun a y => { a with revocationDate := y }) := fun _ => ⟨_, rfl, rfl, fun _ => rfl⟩
theorem CertificateProperties.at_destructionDate : IsField CertificateProperties.tree F.CertificateProperties.destructionDate Tree.str (·.destructionDate)
    (fun a y => { a with destructionDate := y }) := fun _ => ⟨_, rfl, rfl, fun _ => rfl⟩

theorem RelatedCryptoMaterialProperties.at_type : IsField RelatedCryptoMaterialProperties.tree F.RelatedCryptoMaterialProperties.type Tree.str (·.type)
    (fun a y => { a with type := y }) := fun _ => ⟨_, rfl, rfl, fun _ => rfl⟩
theorem RelatedCryptoMaterialProperties.at_id : IsField RelatedCryptoMaterialProperties.tree F.RelatedCryptoMaterialProperties.id Tree.str (·.id)
    (fun a y => { a with id := y }) := fun _ => ⟨_, rfl, rfl, fun _ => rfl⟩
theorem RelatedCryptoMaterialProperties.at_state : IsField RelatedCryptoMaterialProperties.tree F.RelatedCryptoMaterialProperties.state Tree.str (·.state)
    (fun a y => { a with state := y }) := fun _ => ⟨_, rfl, rfl, fun _ => rfl⟩
theorem RelatedCryptoMaterialProperties.at_algorithmRef : IsField RelatedCryptoMaterialProperties.tree F.RelatedCryptoMaterialProperties.algorithmRef Tree.ref (·.algorithmRef)
    (fun a y => { a with algorithmRef := y }) := fun _ => ⟨_, rfl, rfl, fun _ => rfl⟩
theorem RelatedCryptoMaterialProperties.at_creationDate : IsField RelatedCryptoMaterialProperties.tree F.RelatedCryptoMaterialProperties.creationDate Tree.str (·.creationDate)
    (fun a y => { a with creationDate := y }) := fun _ => ⟨_, rfl, rfl, fun _ => rfl⟩
theorem RelatedCryptoMaterialProperties.at_activationDate : IsField RelatedCryptoMaterialProperties.tree F.RelatedCryptoMaterialProperties.activationDate Tree.str (·.activationDate)
    (fun a y => { a with activationDate := y }) := fun _ => ⟨_, rfl, rfl, fun _ => rfl⟩
theorem RelatedCryptoMaterialProperties.at_updateDate : IsField RelatedCryptoMaterialProperties.tree F.RelatedCryptoMaterialProperties.updateDate Tree.str (·.updateDate)
    (fun a y => { a with updateDate := y }) := fun _ => ⟨_, rfl, rfl, fun _ => rfl⟩
theorem RelatedCryptoMaterialProperties.at_expirationDate : IsField RelatedCryptoMaterialProperties.tree F.RelatedCryptoMaterialProperties.expirationDate Tree.str (·.expirationDate)
    (fun a y => { a with expirationDate := y }) := fun _ => ⟨_, rfl, rfl, fun _ => rfl⟩
theorem RelatedCryptoMaterialProperties.at_value : IsField RelatedCryptoMaterialProperties.tree F.RelatedCryptoMaterialProperties.value Tree.str (·.value)
    (fun a y => { a with value := y }) := fun _ => ⟨_, rfl, rfl, fun _ => rfl⟩
theorem RelatedCryptoMaterialProperties.at_size : IsField RelatedCryptoMaterialProperties.tree F.RelatedCryptoMaterialProperties.size (Tree.opt Tree.int) (·.size)
    (fun a y => { a with size := y }) := fun _ => ⟨_, rfl, rfl, fun _ => rfl⟩
theorem RelatedCryptoMaterialProperties.at_format : IsField RelatedCryptoMaterialProperties.tree F.RelatedCryptoMaterialProperties.format Tree.str (·.format)
    (fun a y => { a with format := y }) := fun _ => ⟨_, rfl, rfl, fun _ => rfl⟩
theorem RelatedCryptoMaterialProperties.at_securedBy : IsField RelatedCryptoMaterialProperties.tree F.RelatedCryptoMaterialProperties.securedBy (Tree.opt SecuredBy.tree) (·.securedBy)
    (fun a y => { a with securedBy := y }) := fun _ => ⟨_, rfl, rfl, fun _ => rfl⟩
theorem RelatedCryptoMaterialProperties.at_fingerprint : IsField RelatedCryptoMaterialProperties.tree F.RelatedCryptoMaterialProperties.fingerprint (Tree.opt Hash.tree) (·.fingerprint)
    (fun a y => { a with fingerprint := y }) := fun _ => ⟨_, rfl, rfl, fun _ => rfl⟩
theorem RelatedCryptoMaterialProperties.at_relatedCryptographicAssets : IsField RelatedCryptoMaterialProperties.tree F.RelatedCryptoMaterialProperties.relatedCryptographicAssets (Tree.pslice RelatedCryptographicAsset.tree) (·.relatedCryptographicAssets)
    (fun a y => { a with relatedCryptographicAssets := y }) := fun _ => ⟨_, rfl, rfl, fun _ => rfl⟩

theorem CryptoProtocolProperties.at_type : IsField CryptoProtocolProperties.tree F.CryptoProtocolProperties.type Tree.str (·.type)
    (fun a y => { a with type := y }) := fun _ => ⟨_, rfl, rfl, fun _ => rfl⟩
theorem CryptoProtocolProperties.at_version : IsField CryptoProtocolProperties.tree F.CryptoProtocolProperties.version Tree.str (·.version)
    (fun a y => { a with version := y }) := fun _ => ⟨_, rfl, rfl, fun _ => rfl⟩
theorem CryptoProtocolProperties.at_cipherSuites : IsField CryptoProtocolProperties.tree F.CryptoProtocolProperties.cipherSuites (Tree.pslice CipherSuite.tree) (·.cipherSuites)
    (fun a y => { a with cipherSuites := y }) := fun _ => ⟨_, rfl, rfl, fun _ => rfl⟩
theorem CryptoProtocolProperties.at_ikev2TransformTypes : IsField CryptoProtocolProperties.tree F.CryptoProtocolProperties.ikev2TransformTypes (Tree.opt IKEv2TransformTypes.tree) (·.ikev2TransformTypes)
    (fun a y => { a with ikev2TransformTypes := y }) := fun _ => ⟨_, rfl, rfl, fun _ => rfl⟩
theorem CryptoProtocolProperties.at_cryptoRefArray : IsField CryptoProtocolProperties.tree F.CryptoProtocolProperties.cryptoRefArray (Tree.pslice Tree.ref) (·.cryptoRefArray)
    (fun a y => { a with cryptoRefArray := y }) := fun _ => ⟨_, rfl, rfl, fun _ => rfl⟩
theorem CryptoProtocolProperties.at_relatedCryptographicAssets : IsField CryptoProtocolProperties.tree F.CryptoProtocolProperties.relatedCryptographicAssets (Tree.pslice RelatedCryptographicAsset.tree) (·.relatedCryptographicAssets)
    (fun a y => { a with relatedCryptographicAssets := y }) := fun _ => ⟨_, rfl, rfl, fun _ => rfl⟩

theorem CipherSuite.at_name : IsField CipherSuite.tree F.CipherSuite.name Tree.str (·.name)
    (fun a y => { a with name := y }) := fun _ => ⟨_, rfl, rfl, fun _ => rfl⟩
theorem CipherSuite.at_algorithms : IsField CipherSuite.tree F.CipherSuite.algorithms (Tree.pslice Tree.ref) (·.algorithms)
    (fun a y => { a with algorithms := y }) := fun _ => ⟨_, rfl, rfl, fun _ => rfl⟩
theorem CipherSuite.at_identifiers : IsField CipherSuite.tree F.CipherSuite.identifiers (Tree.pslice Tree.str) (·.identifiers)
    (fun a y => { a with identifiers := y }) := fun _ => ⟨_, rfl, rfl, fun _ => rfl⟩
theorem CipherSuite.at_tlsGroups : IsField CipherSuite.tree F.CipherSuite.tlsGroups (Tree.pslice Tree.str) (·.tlsGroups)
    (fun a y => { a with tlsGroups := y }) := fun _ => ⟨_, rfl, rfl, fun _ => rfl⟩
theorem CipherSuite.at_tlsSignatureSchemes : IsField CipherSuite.tree F.CipherSuite.tlsSignatureSchemes (Tree.pslice Tree.str) (·.tlsSignatureSchemes)
    (fun a y => { a with tlsSignatureSchemes := y }) := fun _ => ⟨_, rfl, rfl, fun _ => rfl⟩

theorem Service.at_bomRef : IsField Service.tree F.Service.bomRef Tree.str (·.bomRef)
    (fun a y => { a with bomRef := y }) := fun a => ⟨_, Service.tree_eq a, rfl, fun _ => Service.tree_eq _⟩
theorem Service.at_provider : IsField Service.tree F.Service.provider (Tree.opt OrganizationalEntity.tree) (·.provider)
    (fun a y => { a with provider := y }) := fun a => ⟨_, Service.tree_eq a, rfl, fun _ => Service.tree_eq _⟩
theorem Service.at_group : IsField Service.tree F.Service.group Tree.str (·.group)
    (fun a y => { a with group := y }) := fun a => ⟨_, Service.tree_eq a, rfl, fun _ => Service.tree_eq _⟩
theorem Service.at_name : IsField Service.tree F.Service.name Tree.str (·.name)
    (fun a y => { a with name := y }) := fun a => ⟨_, Service.tree_eq a, rfl, fun _ => Service.tree_eq _⟩
theorem Service.at_version : IsField Service.tree F.Service.version Tree.str (·.version)
    (fun a y => { a with version := y }) := fun a => ⟨_, Service.tree_eq a, rfl, fun _ => Service.tree_eq _⟩
theorem Service.at_description : IsField Service.tree F.Service.description Tree.str (·.description)
    (fun a y => { a with description := y }) := fun a => ⟨_, Service.tree_eq a, rfl, fun _ => Service.tree_eq _⟩
theorem Service.at_endpoints : IsField Service.tree F.Service.endpoints (Tree.pslice Tree.str) (·.endpoints)
    (fun a y => { a with endpoints := y }) := fun a => ⟨_, Service.tree_eq a, rfl, fun _ => Service.tree_eq _⟩
theorem Service.at_authenticated : IsField Service.tree F.Service.authenticated (Tree.opt Tree.bool) (·.authenticated)
    (fun a y => { a with authenticated := y }) := fun a => ⟨_, Service.tree_eq a, rfl, fun _ => Service.tree_eq _⟩
theorem Service.at_crossesTrustBoundary : IsField Service.tree F.Service.crossesTrustBoundary (Tree.opt Tree.bool) (·.crossesTrustBoundary)
    (fun a y => { a with crossesTrustBoundary := y }) := fun a => ⟨_, Service.tree_eq a, rfl, fun _ => Service.tree_eq _⟩
theorem Service.at_data : IsField Service.tree F.Service.data (Tree.pslice DataClassification.tree) (·.data)
    (fun a y => { a with data := y }) := fun a => ⟨_, Service.tree_eq a, rfl, fun _ => Service.tree_eq _⟩
theorem Service.at_licenses : IsField Service.tree F.Service.licenses (Tree.pslice LicenseChoice.tree) (·.licenses)
    (fun a y => { a with licenses := y }) := fun a => ⟨_, Service.tree_eq a, rfl, fun _ => Service.tree_eq _⟩
theorem Service.at_externalReferences : IsField Service.tree F.Service.externalReferences (Tree.pslice ExternalReference.tree) (·.externalReferences)
    (fun a y => { a with externalReferences := y }) := fun a => ⟨_, Service.tree_eq a, rfl, fun _ => Service.tree_eq _⟩
theorem Service.at_properties : IsField Service.tree F.Service.properties (Tree.pslice Property.tree) (·.properties)
    (fun a y => { a with properties := y }) := fun a => ⟨_, Service.tree_eq a, rfl, fun _ => Service.tree_eq _⟩
theorem Service.at_services : IsField Service.tree F.Service.services (Tree.pslice Service.tree) (·.services)
    (fun a y => { a with services := y }) := fun a => ⟨_, Service.tree_eq a, rfl, fun _ => Service.tree_eq _⟩
theorem Service.at_releaseNotes : IsField Service.tree F.Service.releaseNotes (Tree.opt ReleaseNotes.tree) (·.releaseNotes)
    (fun a y => { a with releaseNotes := y }) := fun a => ⟨_, Service.tree_eq a, rfl, fun _ => Service.tree_eq _⟩
theorem Service.at_tags : IsField Service.tree F.Service.tags (Tree.pslice Tree.str) (·.tags)
    (fun a y => { a with tags := y }) := fun a => ⟨_, Service.tree_eq a, rfl, fun _ => Service.tree_eq _⟩
theorem Service.at_trustZone : IsField Service.tree F.Service.trustZone Tree.str (·.trustZone)
    (fun a y => { a with trustZone := y }) := fun a => ⟨_, Service.tree_eq a, rfl, fun _ => Service.tree_eq _⟩
theorem Service.at_patentAssertions : IsField Service.tree F.Service.patentAssertions (Tree.pslice PatentAssertion.tree) (·.patentAssertions)
    (fun a y => { a with patentAssertions := y }) := fun a => ⟨_, Service.tree_eq a, rfl, fun _ => Service.tree_eq _⟩
theorem Service.at_signature : IsField Service.tree F.Service.signature (Tree.opt JSFSignature.tree) (·.signature)
    (fun a y => { a with signature := y }) := fun a => ⟨_, Service.tree_eq a, rfl, fun _ => Service.tree_eq _⟩

theorem ToolsChoice.at_tools : IsField ToolsChoice.tree F.ToolsChoice.tools (Tree.pslice Tool.tree) (·.tools)
    (fun a y => { a with tools := y }) := fun _ => ⟨_, rfl, rfl, fun _ => rfl⟩
theorem ToolsChoice.at_components : IsField ToolsChoice.tree F.ToolsChoice.components (Tree.pslice Component.tree) (·.components)
    (fun a y => { a with components := y }) := fun _ => ⟨_, rfl, rfl, fun _ => rfl⟩
theorem ToolsChoice.at_services : IsField ToolsChoice.tree F.ToolsChoice.services (Tree.pslice Service.tree) (·.services)
    (fun a y => { a with services := y }) := fun _ => ⟨_, rfl, rfl, fun _ => rfl⟩

theorem Tool.at_vendor : IsField Tool.tree F.Tool.vendor Tree.str (·.vendor)
    (fun a y => { a with vendor := y }) := fun _ => ⟨_, rfl, rfl, fun _ => rfl⟩
theorem Tool.at_name : IsField Tool.tree F.Tool.name Tree.str (·.name)
    (fun a y => { a with name := y }) := fun _ => ⟨_, rfl, rfl, fun _ => rfl⟩
theorem Tool.at_version : IsField Tool.tree F.Tool.version Tree.str (·.version)
    (fun a y => { a with version := y }) := fun _ => ⟨_, rfl, rfl, fun _ => rfl⟩
theorem Tool.at_hashes : IsField Tool.tree F.Tool.hashes (Tree.pslice Hash.tree) (·.hashes)
    (fun a y => { a with hashes := y }) := fun _ => ⟨_, rfl, rfl, fun _ => rfl⟩
theorem Tool.at_externalReferences : IsField Tool.tree F.Tool.externalReferences (Tree.pslice ExternalReference.tree) (·.externalReferences)
    (fun a y => { a with externalReferences := y }) := fun _ => ⟨_, rfl, rfl, fun _ => rfl⟩

theorem Vulnerability.at_bomRef : IsField Vulnerability.tree F.Vulnerability.bomRef Tree.str (·.bomRef)
    (fun a y => { a with bomRef := y }) := fun _ => ⟨_, rfl, rfl, fun _ => rfl⟩
theorem Vulnerability.at_id : IsField Vulnerability.tree F.Vulnerability.id Tree.str (·.id)
    (fun a y => { a with id := y }) := fun _ => ⟨_, rfl, rfl, fun _ => rfl⟩
theorem Vulnerability.at_source : IsField Vulnerability.tree F.Vulnerability.source (Tree.opt Source.tree) (·.source)
    (fun a y => { a with source := y }) := fun _ => ⟨_, rfl, rfl, fun _ => rfl⟩
theorem Vulnerability.at_references : IsField Vulnerability.tree F.Vulnerability.references (Tree.pslice VulnerabilityReference.tree) (·.references)
    (fun a y => { a with references := y }) := fun _ => ⟨_, rfl, rfl, fun _ => rfl⟩
theorem Vulnerability.at_ratings : IsField Vulnerability.tree F.Vulnerability.ratings (Tree.pslice VulnerabilityRating.tree) (·.ratings)
    (fun a y => { a with ratings := y }) := fun _ => ⟨_, rfl, rfl, fun _ => rfl⟩
theorem Vulnerability.at_cwes : IsField Vulnerability.tree F.Vulnerability.cwes (Tree.pslice Tree.int) (·.cwes)
    (fun a y => { a with cwes := y }) := fun _ => ⟨_, rfl, rfl, fun _ => rfl⟩
theorem Vulnerability.at_description : IsField Vulnerability.tree F.Vulnerability.description Tree.str (·.description)
    (fun a y => { a with description := y }) := fun _ => ⟨_, rfl, rfl, fun _ => rfl⟩
theorem Vulnerability.at_detail : IsField Vulnerability.tree F.Vulnerability.detail Tree.str (·.detail)
    (fun a y => { a with detail := y }) := fun _ => ⟨_, rfl, rfl, fun _ => rfl⟩
theorem Vulnerability.at_recommendation : IsField Vulnerability.tree F.Vulnerability.recommendation Tree.str (·.recommendation)
    (fun a y => { a with recommendation := y }) := fun _ => ⟨_, rfl, rfl, fun _ => rfl⟩
theorem Vulnerability.at_workaround : IsField Vulnerability.tree F.Vulnerability.workaround Tree.str (·.workaround)
    (fun a y => { a with workaround := y }) := fun _ => ⟨_, rfl, rfl, fun _ => rfl⟩
theorem Vulnerability.at_proofOfConcept : IsField Vulnerability.tree F.Vulnerability.proofOfConcept (Tree.opt ProofOfConcept.tree) (·.proofOfConcept)
    (fun a y => { a with proofOfConcept := y }) := fun _ => ⟨_, rfl, rfl, fun _ => rfl⟩
theorem Vulnerability.at_advisories : IsField Vulnerability.tree F.Vulnerability.advisories (Tree.pslice Advisory.tree) (·.advisories)
    (fun a y => { a with advisories := y }) := fun _ => ⟨_, rfl, rfl, fun _ => rfl⟩
theorem Vulnerability.at_created : IsField Vulnerability.tree F.Vulnerability.created Tree.str (·.created)
    (fun a y => { a with created := y }) := fun _ => ⟨_, rfl, rfl, fun _ => rfl⟩
theorem Vulnerability.at_published : IsField Vulnerability.tree F.Vulnerability.published Tree.str (·.published)
    (fun a y => { a with published := y }) := fun _ => ⟨_, rfl, rfl, fun _ => rfl⟩
theorem Vulnerability.at_updated : IsField Vulnerability.tree F.Vulnerability.updated Tree.str (·.updated)
    (fun a y => { a with updated := y }) := fun _ => ⟨_, rfl, rfl, fun _ => rfl⟩
theorem Vulnerability.at_rejected : IsField Vulnerability.tree F.Vulnerability.rejected Tree.str (·.rejected)
    (fun a y => { a with rejected := y }) := fun _ => ⟨_, rfl, rfl, fun _ => rfl⟩
theorem Vulnerability.at_credits : IsField Vulnerability.tree F.Vulnerability.credits (Tree.opt Credits.tree) (·.credits)
    (fun a y => { a with credits := y }) := fun _ => ⟨_, rfl, rfl, fun _ => rfl⟩
theorem Vulnerability.at_tools : IsField Vulnerability.tree F.Vulnerability.tools (Tree.opt ToolsChoice.tree) (·.tools)
    (fun a y => { a with tools := y }) := fun _ => ⟨_, rfl, rfl, fun _ => rfl⟩
theorem Vulnerability.at_analysis : IsField Vulnerability.tree F.Vulnerability.analysis (Tree.opt VulnerabilityAnalysis.tree) (·.analysis)
    (fun a y => { a with analysis := y }) := fun _ => ⟨_, rfl, rfl, fun _ => rfl⟩
theorem Vulnerability.at_affects : IsField Vulnerability.tree F.Vulnerability.affects (Tree.pslice Affects.tree) (·.affects)
    (fun a y => { a with affects := y }) := fun _ => ⟨_, rfl, rfl, fun _ => rfl⟩
theorem Vulnerability.at_properties : IsField Vulnerability.tree F.Vulnerability.properties (Tree.pslice Property.tree) (·.properties)
    (fun a y => { a with properties := y }) := fun _ => ⟨_, rfl, rfl, fun _ => rfl⟩

theorem VulnerabilityAnalysis.at_state : IsField VulnerabilityAnalysis.tree F.VulnerabilityAnalysis.state Tree.str (·.state)
    (fun a y => { a with state := y }) := fun _ => ⟨_, rfl, rfl, fun _ => rfl⟩
theorem VulnerabilityAnalysis.at_justification : IsField VulnerabilityAnalysis.tree F.VulnerabilityAnalysis.justification Tree.str (·.justification)
    (fun a y => { a with justification := y }) := fun _ => ⟨_, rfl, rfl, fun _ => rfl⟩
theorem VulnerabilityAnalysis.at_response : IsField VulnerabilityAnalysis.tree F.VulnerabilityAnalysis.response (Tree.pslice Tree.str) (·.response)
    (fun a y => { a with response := y }) := fun _ => ⟨_, rfl, rfl, fun _ => rfl⟩
theorem VulnerabilityAnalysis.at_detail : IsField VulnerabilityAnalysis.tree F.VulnerabilityAnalysis.detail Tree.str (·.detail)
    (fun a y => { a with detail := y }) := fun _ => ⟨_, rfl, rfl, fun _ => rfl⟩
theorem VulnerabilityAnalysis.at_firstIssued : IsField VulnerabilityAnalysis.tree F.VulnerabilityAnalysis.firstIssued Tree.str (·.firstIssued)
    (fun a y => { a with firstIssued := y }) := fun _ => ⟨_, rfl, rfl, fun _ => rfl⟩
theorem VulnerabilityAnalysis.at_lastUpdated : IsField VulnerabilityAnalysis.tree F.VulnerabilityAnalysis.lastUpdated Tree.str (·.lastUpdated)
    (fun a y => { a with lastUpdated := y }) := fun _ => ⟨_, rfl, rfl, fun _ => rfl⟩

theorem VulnerabilityRating.at_source : IsField VulnerabilityRating.tree F.VulnerabilityRating.source (Tree.opt Source.tree) (·.source)
    (fun a y => { a with source := y }) := fun _ => ⟨_, rfl, rfl, fun _ => rfl⟩
theorem VulnerabilityRating.at_score : IsField VulnerabilityRating.tree F.VulnerabilityRating.score (Tree.opt Tree.f64) (·.score)
    (fun a y => { a with score := y }) := fun _ => ⟨_, rfl, rfl, fun _ => rfl⟩
theorem VulnerabilityRating.at_severity : IsField VulnerabilityRating.tree F.VulnerabilityRating.severity Tree.str (·.severity)
    (fun a y => { a with severity := y }) := fun _ => ⟨_, rfl, rfl, fun _ => rfl⟩
theorem VulnerabilityRating.at_method : IsField VulnerabilityRating.tree F.VulnerabilityRating.method Tree.str (·.method)
    (fun a y => { a with method := y }) := fun _ => ⟨_, rfl, rfl, fun _ => rfl⟩
theorem VulnerabilityRating.at_vector : IsField VulnerabilityRating.tree F.VulnerabilityRating.vector Tree.str (·.vector)
    (fun a y => { a with vector := y }) := fun _ => ⟨_, rfl, rfl, fun _ => rfl⟩
theorem VulnerabilityRating.at_justification : IsField VulnerabilityRating.tree F.VulnerabilityRating.justification Tree.str (·.justification)
    (fun a y => { a with justification := y }) := fun _ => ⟨_, rfl, rfl, fun _ => rfl⟩

theorem Credits.at_organizations : IsField Credits.tree F.Credits.organizations (Tree.pslice OrganizationalEntity.tree) (·.organizations)
    (fun a y => { a with organizations := y }) := fun _ => ⟨_, rfl, rfl, fun _ => rfl⟩
theorem Credits.at_individuals : IsField Credits.tree F.Credits.individuals (Tree.pslice OrganizationalContact.tree) (·.individuals)
    (fun a y => { a with individuals := y }) := fun _ => ⟨_, rfl, rfl, fun _ => rfl⟩

theorem Annotation.at_bomRef : IsField Annotation.tree F.Annotation.bomRef Tree.str (·.bomRef)
    (fun a y => { a with bomRef := y }) := fun _ => ⟨_, rfl, rfl, fun _ => rfl⟩
theorem Annotation.at_subjects : IsField Annotation.tree F.Annotation.subjects (Tree.pslice Tree.ref) (·.subjects)
    (fun a y => { a with subjects := y }) := fun _ => ⟨_, rfl, rfl, fun _ => rfl⟩
theorem Annotation.at_annotator : IsField Annotation.tree F.Annotation.annotator (Tree.opt Annotator.tree) (·.annotator)
    (fun a y => { a with annotator := y }) := fun _ => ⟨_, rfl, rfl, fun _ => rfl⟩
theorem Annotation.at_timestamp : IsField Annotation.tree F.Annotation.timestamp Tree.str (·.timestamp)
    (fun a y => { a with timestamp := y }) := fun _ => ⟨_, rfl, rfl, fun _ => rfl⟩
theorem Annotation.at_text : IsField Annotation.tree F.Annotation.text Tree.str (·.text)
    (fun a y => { a with text := y }) := fun _ => ⟨_, rfl, rfl, fun _ => rfl⟩
theorem Annotation.at_signature : IsField Annotation.tree F.Annotation.signature (Tree.opt JSFSignature.tree) (·.signature)
    (fun a y => { a with signature := y }) := fun _ => ⟨_, rfl, rfl, fun _ => rfl⟩

theorem Annotator.at_organization : IsField Annotator.tree F.Annotator.organization (Tree.opt OrganizationalEntity.tree) (·.organization)
    (fun a y => { a with organization := y }) := fun _ => ⟨_, rfl, rfl, fun _ => rfl⟩
theorem Annotator.at_individual : IsField Annotator.tree F.Annotator.individual (Tree.opt OrganizationalContact.tree) (·.individual)
    (fun a y => { a with individual := y }) := fun _ => ⟨_, rfl, rfl, fun _ => rfl⟩
theorem Annotator.at_component : IsField Annotator.tree F.Annotator.component (Tree.opt Component.tree) (·.component)
    (fun a y => { a with component := y }) := fun _ => ⟨_, rfl, rfl, fun _ => rfl⟩
theorem Annotator.at_service : IsField Annotator.tree F.Annotator.service (Tree.opt Service.tree) (·.service)
    (fun a y => { a with service := y }) := fun _ => ⟨_, rfl, rfl, fun _ => rfl⟩

theorem Dependency.at_ref : IsField Dependency.tree F.Dependency.ref Tree.str (·.ref)
    (fun a y => { a with ref := y }) := fun _ => ⟨_, rfl, rfl, fun _ => rfl⟩
theorem Dependency.at_dependencies : IsField Dependency.tree F.Dependency.dependencies (Tree.pslice Tree.str) (·.dependencies)
    (fun a y => { a with dependencies := y }) := fun _ => ⟨_, rfl, rfl, fun _ => rfl⟩
theorem Dependency.at_provides : IsField Dependency.tree F.Dependency.provides (Tree.pslice Tree.str) (·.provides)
    (fun a y => { a with provides := y }) := fun _ => ⟨_, rfl, rfl, fun _ => rfl⟩

theorem Definitions.at_standards : IsField Definitions.tree F.Definitions.standards (Tree.pslice StandardDefinition.tree) (·.standards)
    (fun a y => { a with standards := y }) := fun _ => ⟨_, rfl, rfl, fun _ => rfl⟩
theorem Definitions.at_patents : IsField Definitions.tree F.Definitions.patents (Tree.pslice PatentChoice.tree) (·.patents)
    (fun a y => { a with patents := y }) := fun _ => ⟨_, rfl, rfl, fun _ => rfl⟩

end Verif
