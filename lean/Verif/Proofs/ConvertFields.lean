import Verif.Model.Convert
import Mathlib.Tactic.SplitIfs

/-!
GENERATED by `tools/gen_convert_fields.py`; do not edit by hand.

Helper lemmas: the effect of each conversion on each field.
-/

namespace Verif

/-- Closes goals whose version hypotheses contradict each other. -/
macro "vomega" : tactic => `(tactic| (exfalso; simp only [SpecVersion1_0, SpecVersion1_1, SpecVersion1_2,
  SpecVersion1_3, SpecVersion1_4, SpecVersion1_5, SpecVersion1_6, SpecVersion1_7] at *; omega))

@[simp] theorem convertLicenses_nil (v : Int) : convertLicenses v .nil = .nil := by
  simp [convertLicenses, convertLicenses1_0, PSlice.map]

/-- Projects a field out of a conversion. -/
macro "proj " d:ident f:ident : tactic => `(tactic| (
  simp only [$d:ident, apply_ite $f:ident, ite_self, Bool.not_eq_true', Bool.not_eq_eq_eq_not,
    Bool.not_true, PSlice.map, Option.map_none, convertLicenses_nil, convertExternalReferences, convertCompositions,
    convertVulnerabilities, convertAnnotations, convertDataClassifications]
  <;> first | done | (repeat' split) <;> first | rfl | vomega | simp_all))

attribute [ext] OrganizationalEntity
attribute [ext] Composition
attribute [ext] ExternalReference
attribute [ext] CryptoAlgorithmProperties
attribute [ext] CertificateProperties
attribute [ext] RelatedCryptoMaterialProperties
attribute [ext] CryptoProtocolProperties
attribute [ext] Component
attribute [ext] Service
attribute [ext] Tool
attribute [ext] Vulnerability
attribute [ext] Metadata
attribute [ext] BOM

section
variable (v : Int) (x : OrganizationalEntity)

@[simp] theorem convertOrganizationalEntity_bomRef : (convertOrganizationalEntity v x).bomRef =
    (if v < SpecVersion1_5 then "" else x.bomRef) := by
  proj convertOrganizationalEntity OrganizationalEntity.bomRef
@[simp] theorem convertOrganizationalEntity_name : (convertOrganizationalEntity v x).name =
    (x.name) := by
  proj convertOrganizationalEntity OrganizationalEntity.name
@[simp] theorem convertOrganizationalEntity_address : (convertOrganizationalEntity v x).address =
    (if v < SpecVersion1_6 then none else x.address) := by
  proj convertOrganizationalEntity OrganizationalEntity.address
@[simp] theorem convertOrganizationalEntity_url : (convertOrganizationalEntity v x).url =
    (x.url) := by
  proj convertOrganizationalEntity OrganizationalEntity.url
@[simp] theorem convertOrganizationalEntity_contact : (convertOrganizationalEntity v x).contact =
    (if v < SpecVersion1_5 then x.contact.map (convertOrganizationalContact v) else x.contact) := by
  proj convertOrganizationalEntity OrganizationalEntity.contact

end

section
variable (v : Int) (x : Composition)

@[simp] theorem convertComposition_bomRef : (convertComposition v x).bomRef =
    (if v < SpecVersion1_5 then "" else x.bomRef) := by
  proj convertComposition Composition.bomRef
@[simp] theorem convertComposition_aggregate : (convertComposition v x).aggregate =
    (if supportsCompositionAggregate v x.aggregate then x.aggregate else CompositionAggregateUnknown) := by
  proj convertComposition Composition.aggregate
@[simp] theorem convertComposition_assemblies : (convertComposition v x).assemblies =
    (x.assemblies) := by
  proj convertComposition Composition.assemblies
@[simp] theorem convertComposition_dependencies : (convertComposition v x).dependencies =
    (x.dependencies) := by
  proj convertComposition Composition.dependencies
@[simp] theorem convertComposition_vulnerabilities : (convertComposition v x).vulnerabilities =
    (if v < SpecVersion1_5 then .nil else x.vulnerabilities) := by
  proj convertComposition Composition.vulnerabilities
@[simp] theorem convertComposition_signature : (convertComposition v x).signature =
    (x.signature) := by
  proj convertComposition Composition.signature

end

section
variable (v : Int) (x : ExternalReference)

@[simp] theorem convertExternalReference_url : (convertExternalReference v x).url =
    (x.url) := by
  proj convertExternalReference ExternalReference.url
@[simp] theorem convertExternalReference_comment : (convertExternalReference v x).comment =
    (x.comment) := by
  proj convertExternalReference ExternalReference.comment
@[simp] theorem convertExternalReference_hashes : (convertExternalReference v x).hashes =
    (if v < SpecVersion1_3 then .nil else x.hashes) := by
  proj convertExternalReference ExternalReference.hashes
@[simp] theorem convertExternalReference_type : (convertExternalReference v x).type =
    (if supportsExternalReferenceType v x.type then x.type else ERTypeOther) := by
  proj convertExternalReference ExternalReference.type
@[simp] theorem convertExternalReference_properties : (convertExternalReference v x).properties =
    (if v < SpecVersion1_7 then .nil else x.properties) := by
  proj convertExternalReference ExternalReference.properties

end

section
variable (v : Int) (x : CryptoAlgorithmProperties)

@[simp] theorem convertAlgorithmProperties_primitive : (convertAlgorithmProperties v x).primitive =
    (if supportsCryptoPrimitive v x.primitive then x.primitive else "") := by
  proj convertAlgorithmProperties CryptoAlgorithmProperties.primitive
@[simp] theorem convertAlgorithmProperties_parameterSetIdentifier : (convertAlgorithmProperties v x).parameterSetIdentifier =
    (x.parameterSetIdentifier) := by
  proj convertAlgorithmProperties CryptoAlgorithmProperties.parameterSetIdentifier
@[simp] theorem convertAlgorithmProperties_algorithmFamily : (convertAlgorithmProperties v x).algorithmFamily =
    (if v < SpecVersion1_7 then "" else x.algorithmFamily) := by
  proj convertAlgorithmProperties CryptoAlgorithmProperties.algorithmFamily
@[simp] theorem convertAlgorithmProperties_curve : (convertAlgorithmProperties v x).curve =
    (x.curve) := by
  proj convertAlgorithmProperties CryptoAlgorithmProperties.curve
@[simp] theorem convertAlgorithmProperties_ellipticCurve : (convertAlgorithmProperties v x).ellipticCurve =
    (if v < SpecVersion1_7 then "" else x.ellipticCurve) := by
  proj convertAlgorithmProperties CryptoAlgorithmProperties.ellipticCurve
@[simp] theorem convertAlgorithmProperties_executionEnvironment : (convertAlgorithmProperties v x).executionEnvironment =
    (x.executionEnvironment) := by
  proj convertAlgorithmProperties CryptoAlgorithmProperties.executionEnvironment
@[simp] theorem convertAlgorithmProperties_implementationPlatform : (convertAlgorithmProperties v x).implementationPlatform =
    (x.implementationPlatform) := by
  proj convertAlgorithmProperties CryptoAlgorithmProperties.implementationPlatform
@[simp] theorem convertAlgorithmProperties_certificationLevel : (convertAlgorithmProperties v x).certificationLevel =
    (x.certificationLevel) := by
  proj convertAlgorithmProperties CryptoAlgorithmProperties.certificationLevel
@[simp] theorem convertAlgorithmProperties_mode : (convertAlgorithmProperties v x).mode =
    (x.mode) := by
  proj convertAlgorithmProperties CryptoAlgorithmProperties.mode
@[simp] theorem convertAlgorithmProperties_padding : (convertAlgorithmProperties v x).padding =
    (x.padding) := by
  proj convertAlgorithmProperties CryptoAlgorithmProperties.padding
@[simp] theorem convertAlgorithmProperties_cryptoFunctions : (convertAlgorithmProperties v x).cryptoFunctions =
    (x.cryptoFunctions) := by
  proj convertAlgorithmProperties CryptoAlgorithmProperties.cryptoFunctions
@[simp] theorem convertAlgorithmProperties_classicalSecurityLevel : (convertAlgorithmProperties v x).classicalSecurityLevel =
    (x.classicalSecurityLevel) := by
  proj convertAlgorithmProperties CryptoAlgorithmProperties.classicalSecurityLevel
@[simp] theorem convertAlgorithmProperties_nistQuantumSecurityLevel : (convertAlgorithmProperties v x).nistQuantumSecurityLevel =
    (x.nistQuantumSecurityLevel) := by
  proj convertAlgorithmProperties CryptoAlgorithmProperties.nistQuantumSecurityLevel

end

section
variable (v : Int) (x : CertificateProperties)

@[simp] theorem convertCertificateProperties_serialNumber : (convertCertificateProperties v x).serialNumber =
    (if v < SpecVersion1_7 then "" else x.serialNumber) := by
  proj convertCertificateProperties CertificateProperties.serialNumber
@[simp] theorem convertCertificateProperties_subjectName : (convertCertificateProperties v x).subjectName =
    (x.subjectName) := by
  proj convertCertificateProperties CertificateProperties.subjectName
@[simp] theorem convertCertificateProperties_issuerName : (convertCertificateProperties v x).issuerName =
    (x.issuerName) := by
  proj convertCertificateProperties CertificateProperties.issuerName
@[simp] theorem convertCertificateProperties_notValidBefore : (convertCertificateProperties v x).notValidBefore =
    (x.notValidBefore) := by
  proj convertCertificateProperties CertificateProperties.notValidBefore
@[simp] theorem convertCertificateProperties_notValidAfter : (convertCertificateProperties v x).notValidAfter =
    (x.notValidAfter) := by
  proj convertCertificateProperties CertificateProperties.notValidAfter
@[simp] theorem convertCertificateProperties_signatureAlgorithmRef : (convertCertificateProperties v x).signatureAlgorithmRef =
    (x.signatureAlgorithmRef) := by
  proj convertCertificateProperties CertificateProperties.signatureAlgorithmRef
@[simp] theorem convertCertificateProperties_subjectPublicKeyRef : (convertCertificateProperties v x).subjectPublicKeyRef =
    (x.subjectPublicKeyRef) := by
  proj convertCertificateProperties CertificateProperties.subjectPublicKeyRef
@[simp] theorem convertCertificateProperties_certificateFormat : (convertCertificateProperties v x).certificateFormat =
    (x.certificateFormat) := by
  proj convertCertificateProperties CertificateProperties.certificateFormat
@[simp] theorem convertCertificateProperties_certificateExtension : (convertCertificateProperties v x).certificateExtension =
    (x.certificateExtension) := by
  proj convertCertificateProperties CertificateProperties.certificateExtension
@[simp] theorem convertCertificateProperties_certificateFileExtension : (convertCertificateProperties v x).certificateFileExtension =
    (if v < SpecVersion1_7 then "" else x.certificateFileExtension) := by
  proj convertCertificateProperties CertificateProperties.certificateFileExtension
@[simp] theorem convertCertificateProperties_fingerprint : (convertCertificateProperties v x).fingerprint =
    (if v < SpecVersion1_7 then none else x.fingerprint) := by
  proj convertCertificateProperties CertificateProperties.fingerprint
@[simp] theorem convertCertificateProperties_certificateState : (convertCertificateProperties v x).certificateState =
    (if v < SpecVersion1_7 then .nil else x.certificateState) := by
  proj convertCertificateProperties CertificateProperties.certificateState
@[simp] theorem convertCertificateProperties_certificateExtensions : (convertCertificateProperties v x).certificateExtensions =
    (if v < SpecVersion1_7 then .nil else x.certificateExtensions) := by
  proj convertCertificateProperties CertificateProperties.certificateExtensions
@[simp] theorem convertCertificateProperties_relatedCryptographicAssets : (convertCertificateProperties v x).relatedCryptographicAssets =
    (if v < SpecVersion1_7 then .nil else x.relatedCryptographicAssets) := by
  proj convertCertificateProperties CertificateProperties.relatedCryptographicAssets
@[simp] theorem convertCertificateProperties_creationDate : (convertCertificateProperties v x).creationDate =
    (if v < SpecVersion1_7 then "" else x.creationDate) := by
  proj convertCertificateProperties CertificateProperties.creationDate
@[simp] theorem convertCertificateProperties_activationDate : (convertCertificateProperties v x).activationDate =
    (if v < SpecVersion1_7 then "" else x.activationDate) := by
  proj convertCertificateProperties CertificateProperties.activationDate
@[simp] theorem convertCertificateProperties_deactivationDate : (convertCertificateProperties v x).deactivationDate =
    (if v < SpecVersion1_7 then "" else x.deactivationDate) := by
  proj convertCertificateProperties CertificateProperties.deactivationDate
@[simp] theorem convertCertificateProperties_revocationDate : (convertCertificateProperties v x).revocationDate =
    (if v < SpecVersion1_7 then "" else x.revocationDate) := by
  proj convertCertificateProperties CertificateProperties.revocationDate
@[simp] theorem convertCertificateProperties_destructionDate : (convertCertificateProperties v x).destructionDate =
    (if v < SpecVersion1_7 then "" else x.destructionDate) := by
  proj convertCertificateProperties CertificateProperties.destructionDate

end

section
variable (v : Int) (x : RelatedCryptoMaterialProperties)

@[simp] theorem convertRelatedCryptoMaterial_type : (convertRelatedCryptoMaterial v x).type =
    (x.type) := by
  proj convertRelatedCryptoMaterial RelatedCryptoMaterialProperties.type
@[simp] theorem convertRelatedCryptoMaterial_id : (convertRelatedCryptoMaterial v x).id =
    (x.id) := by
  proj convertRelatedCryptoMaterial RelatedCryptoMaterialProperties.id
@[simp] theorem convertRelatedCryptoMaterial_state : (convertRelatedCryptoMaterial v x).state =
    (x.state) := by
  proj convertRelatedCryptoMaterial RelatedCryptoMaterialProperties.state
@[simp] theorem convertRelatedCryptoMaterial_algorithmRef : (convertRelatedCryptoMaterial v x).algorithmRef =
    (x.algorithmRef) := by
  proj convertRelatedCryptoMaterial RelatedCryptoMaterialProperties.algorithmRef
@[simp] theorem convertRelatedCryptoMaterial_creationDate : (convertRelatedCryptoMaterial v x).creationDate =
    (x.creationDate) := by
  proj convertRelatedCryptoMaterial RelatedCryptoMaterialProperties.creationDate
@[simp] theorem convertRelatedCryptoMaterial_activationDate : (convertRelatedCryptoMaterial v x).activationDate =
    (x.activationDate) := by
  proj convertRelatedCryptoMaterial RelatedCryptoMaterialProperties.activationDate
@[simp] theorem convertRelatedCryptoMaterial_updateDate : (convertRelatedCryptoMaterial v x).updateDate =
    (x.updateDate) := by
  proj convertRelatedCryptoMaterial RelatedCryptoMaterialProperties.updateDate
@[simp] theorem convertRelatedCryptoMaterial_expirationDate : (convertRelatedCryptoMaterial v x).expirationDate =
    (x.expirationDate) := by
  proj convertRelatedCryptoMaterial RelatedCryptoMaterialProperties.expirationDate
@[simp] theorem convertRelatedCryptoMaterial_value : (convertRelatedCryptoMaterial v x).value =
    (x.value) := by
  proj convertRelatedCryptoMaterial RelatedCryptoMaterialProperties.value
@[simp] theorem convertRelatedCryptoMaterial_size : (convertRelatedCryptoMaterial v x).size =
    (x.size) := by
  proj convertRelatedCryptoMaterial RelatedCryptoMaterialProperties.size
@[simp] theorem convertRelatedCryptoMaterial_format : (convertRelatedCryptoMaterial v x).format =
    (x.format) := by
  proj convertRelatedCryptoMaterial RelatedCryptoMaterialProperties.format
@[simp] theorem convertRelatedCryptoMaterial_securedBy : (convertRelatedCryptoMaterial v x).securedBy =
    (x.securedBy) := by
  proj convertRelatedCryptoMaterial RelatedCryptoMaterialProperties.securedBy
@[simp] theorem convertRelatedCryptoMaterial_fingerprint : (convertRelatedCryptoMaterial v x).fingerprint =
    (if v < SpecVersion1_7 then none else x.fingerprint) := by
  proj convertRelatedCryptoMaterial RelatedCryptoMaterialProperties.fingerprint
@[simp] theorem convertRelatedCryptoMaterial_relatedCryptographicAssets : (convertRelatedCryptoMaterial v x).relatedCryptographicAssets =
    (if v < SpecVersion1_7 then .nil else x.relatedCryptographicAssets) := by
  proj convertRelatedCryptoMaterial RelatedCryptoMaterialProperties.relatedCryptographicAssets

end

section
variable (v : Int) (x : CryptoProtocolProperties)

@[simp] theorem convertProtocolProperties_type : (convertProtocolProperties v x).type =
    (if supportsCryptoProtocolType v x.type then x.type else "") := by
  proj convertProtocolProperties CryptoProtocolProperties.type
@[simp] theorem convertProtocolProperties_version : (convertProtocolProperties v x).version =
    (x.version) := by
  proj convertProtocolProperties CryptoProtocolProperties.version
@[simp] theorem convertProtocolProperties_cipherSuites : (convertProtocolProperties v x).cipherSuites =
    (x.cipherSuites.map fun cs => if v < SpecVersion1_7 then { cs with tlsGroups := .nil, tlsSignatureSchemes := .nil } else cs) := by
  proj convertProtocolProperties CryptoProtocolProperties.cipherSuites
@[simp] theorem convertProtocolProperties_ikev2TransformTypes : (convertProtocolProperties v x).ikev2TransformTypes =
    (x.ikev2TransformTypes) := by
  proj convertProtocolProperties CryptoProtocolProperties.ikev2TransformTypes
@[simp] theorem convertProtocolProperties_cryptoRefArray : (convertProtocolProperties v x).cryptoRefArray =
    (x.cryptoRefArray) := by
  proj convertProtocolProperties CryptoProtocolProperties.cryptoRefArray
@[simp] theorem convertProtocolProperties_relatedCryptographicAssets : (convertProtocolProperties v x).relatedCryptographicAssets =
    (if v < SpecVersion1_7 then .nil else x.relatedCryptographicAssets) := by
  proj convertProtocolProperties CryptoProtocolProperties.relatedCryptographicAssets

end

section
variable (v : Int) (x : Component)

@[simp] theorem componentConverter_bomRef : (componentConverter v x).bomRef =
    (if v < SpecVersion1_1 then "" else x.bomRef) := by
  proj componentConverter Component.bomRef
@[simp] theorem componentConverter_mimeType : (componentConverter v x).mimeType =
    (if v < SpecVersion1_2 then "" else x.mimeType) := by
  proj componentConverter Component.mimeType
@[simp] theorem componentConverter_type : (componentConverter v x).type =
    (if supportsComponentType v x.type then x.type else ComponentTypeApplication) := by
  proj componentConverter Component.type
@[simp] theorem componentConverter_supplier : (componentConverter v x).supplier =
    (if v < SpecVersion1_2 then none else x.supplier) := by
  proj componentConverter Component.supplier
@[simp] theorem componentConverter_manufacturer : (componentConverter v x).manufacturer =
    (if v < SpecVersion1_6 then none else x.manufacturer) := by
  proj componentConverter Component.manufacturer
@[simp] theorem componentConverter_author : (componentConverter v x).author =
    (if v < SpecVersion1_2 then "" else x.author) := by
  proj componentConverter Component.author
@[simp] theorem componentConverter_authors : (componentConverter v x).authors =
    (if v < SpecVersion1_6 then .nil else x.authors) := by
  proj componentConverter Component.authors
@[simp] theorem componentConverter_publisher : (componentConverter v x).publisher =
    (x.publisher) := by
  proj componentConverter Component.publisher
@[simp] theorem componentConverter_group : (componentConverter v x).group =
    (x.group) := by
  proj componentConverter Component.group
@[simp] theorem componentConverter_name : (componentConverter v x).name =
    (x.name) := by
  proj componentConverter Component.name
@[simp] theorem componentConverter_version : (componentConverter v x).version =
    (if v < SpecVersion1_4 then (if x.version = "" then "0.0.0" else x.version) else x.version) := by
  proj componentConverter Component.version
@[simp] theorem componentConverter_description : (componentConverter v x).description =
    (x.description) := by
  proj componentConverter Component.description
@[simp] theorem componentConverter_scope : (componentConverter v x).scope =
    (if supportsScope v x.scope then x.scope else "") := by
  proj componentConverter Component.scope
@[simp] theorem componentConverter_hashes : (componentConverter v x).hashes =
    (convertHashes v x.hashes) := by
  proj componentConverter Component.hashes
@[simp] theorem componentConverter_licenses : (componentConverter v x).licenses =
    (convertLicenses v x.licenses) := by
  proj componentConverter Component.licenses
@[simp] theorem componentConverter_copyright : (componentConverter v x).copyright =
    (x.copyright) := by
  proj componentConverter Component.copyright
@[simp] theorem componentConverter_cpe : (componentConverter v x).cpe =
    (x.cpe) := by
  proj componentConverter Component.cpe
@[simp] theorem componentConverter_packageURL : (componentConverter v x).packageURL =
    (x.packageURL) := by
  proj componentConverter Component.packageURL
@[simp] theorem componentConverter_omniborID : (componentConverter v x).omniborID =
    (if v < SpecVersion1_6 then .nil else x.omniborID) := by
  proj componentConverter Component.omniborID
@[simp] theorem componentConverter_swhid : (componentConverter v x).swhid =
    (if v < SpecVersion1_6 then .nil else x.swhid) := by
  proj componentConverter Component.swhid
@[simp] theorem componentConverter_swid : (componentConverter v x).swid =
    (if v < SpecVersion1_2 then none else x.swid) := by
  proj componentConverter Component.swid
@[simp] theorem componentConverter_modified : (componentConverter v x).modified =
    (if v < SpecVersion1_1 then some (x.modified.getD false) else x.modified) := by
  proj componentConverter Component.modified
@[simp] theorem componentConverter_pedigree : (componentConverter v x).pedigree =
    (if v < SpecVersion1_1 then none else if v < SpecVersion1_2 then x.pedigree.map (fun p => { p with patches := .nil }) else x.pedigree) := by
  proj componentConverter Component.pedigree
@[simp] theorem componentConverter_externalReferences : (componentConverter v x).externalReferences =
    (if v < SpecVersion1_1 then .nil else convertExternalReferences v x.externalReferences) := by
  proj componentConverter Component.externalReferences
@[simp] theorem componentConverter_properties : (componentConverter v x).properties =
    (if v < SpecVersion1_3 then .nil else x.properties) := by
  proj componentConverter Component.properties
@[simp] theorem componentConverter_components : (componentConverter v x).components =
    (x.components) := by
  proj componentConverter Component.components
@[simp] theorem componentConverter_evidence : (componentConverter v x).evidence =
    (convertEvidence v x.evidence) := by
  proj componentConverter Component.evidence
@[simp] theorem componentConverter_releaseNotes : (componentConverter v x).releaseNotes =
    (if v < SpecVersion1_4 then none else x.releaseNotes) := by
  proj componentConverter Component.releaseNotes
@[simp] theorem componentConverter_modelCard : (componentConverter v x).modelCard =
    (if v < SpecVersion1_5 then none else convertModelCard v x.modelCard) := by
  proj componentConverter Component.modelCard
@[simp] theorem componentConverter_data : (componentConverter v x).data =
    (if v < SpecVersion1_5 then .nil else x.data) := by
  proj componentConverter Component.data
@[simp] theorem componentConverter_cryptoProperties : (componentConverter v x).cryptoProperties =
    (if v < SpecVersion1_6 then none else convertCryptoProperties v x.cryptoProperties) := by
  proj componentConverter Component.cryptoProperties
@[simp] theorem componentConverter_tags : (componentConverter v x).tags =
    (if v < SpecVersion1_6 then .nil else x.tags) := by
  proj componentConverter Component.tags
@[simp] theorem componentConverter_isExternal : (componentConverter v x).isExternal =
    (if v < SpecVersion1_7 then none else x.isExternal) := by
  proj componentConverter Component.isExternal
@[simp] theorem componentConverter_patentAssertions : (componentConverter v x).patentAssertions =
    (if v < SpecVersion1_7 then .nil else x.patentAssertions) := by
  proj componentConverter Component.patentAssertions
@[simp] theorem componentConverter_versionRange : (componentConverter v x).versionRange =
    (if v < SpecVersion1_7 then "" else x.versionRange) := by
  proj componentConverter Component.versionRange
@[simp] theorem componentConverter_signature : (componentConverter v x).signature =
    (x.signature) := by
  proj componentConverter Component.signature

end

section
variable (v : Int) (x : Service)

@[simp] theorem serviceConverter_bomRef : (serviceConverter v x).bomRef =
    (x.bomRef) := by
  proj serviceConverter Service.bomRef
@[simp] theorem serviceConverter_provider : (serviceConverter v x).provider =
    (x.provider.map (convertOrganizationalEntity v)) := by
  proj serviceConverter Service.provider
@[simp] theorem serviceConverter_group : (serviceConverter v x).group =
    (x.group) := by
  proj serviceConverter Service.group
@[simp] theorem serviceConverter_name : (serviceConverter v x).name =
    (x.name) := by
  proj serviceConverter Service.name
@[simp] theorem serviceConverter_version : (serviceConverter v x).version =
    (x.version) := by
  proj serviceConverter Service.version
@[simp] theorem serviceConverter_description : (serviceConverter v x).description =
    (x.description) := by
  proj serviceConverter Service.description
@[simp] theorem serviceConverter_endpoints : (serviceConverter v x).endpoints =
    (x.endpoints) := by
  proj serviceConverter Service.endpoints
@[simp] theorem serviceConverter_authenticated : (serviceConverter v x).authenticated =
    (x.authenticated) := by
  proj serviceConverter Service.authenticated
@[simp] theorem serviceConverter_crossesTrustBoundary : (serviceConverter v x).crossesTrustBoundary =
    (x.crossesTrustBoundary) := by
  proj serviceConverter Service.crossesTrustBoundary
@[simp] theorem serviceConverter_data : (serviceConverter v x).data =
    (convertDataClassifications v x.data) := by
  proj serviceConverter Service.data
@[simp] theorem serviceConverter_licenses : (serviceConverter v x).licenses =
    (x.licenses) := by
  proj serviceConverter Service.licenses
@[simp] theorem serviceConverter_externalReferences : (serviceConverter v x).externalReferences =
    (convertExternalReferences v x.externalReferences) := by
  proj serviceConverter Service.externalReferences
@[simp] theorem serviceConverter_properties : (serviceConverter v x).properties =
    (if v < SpecVersion1_3 then .nil else x.properties) := by
  proj serviceConverter Service.properties
@[simp] theorem serviceConverter_services : (serviceConverter v x).services =
    (x.services) := by
  proj serviceConverter Service.services
@[simp] theorem serviceConverter_releaseNotes : (serviceConverter v x).releaseNotes =
    (if v < SpecVersion1_4 then none else x.releaseNotes) := by
  proj serviceConverter Service.releaseNotes
@[simp] theorem serviceConverter_tags : (serviceConverter v x).tags =
    (x.tags) := by
  proj serviceConverter Service.tags
@[simp] theorem serviceConverter_trustZone : (serviceConverter v x).trustZone =
    (if v < SpecVersion1_5 then "" else x.trustZone) := by
  proj serviceConverter Service.trustZone
@[simp] theorem serviceConverter_patentAssertions : (serviceConverter v x).patentAssertions =
    (if v < SpecVersion1_7 then .nil else x.patentAssertions) := by
  proj serviceConverter Service.patentAssertions
@[simp] theorem serviceConverter_signature : (serviceConverter v x).signature =
    (x.signature) := by
  proj serviceConverter Service.signature

end

section
variable (v : Int) (x : Tool)

@[simp] theorem convertTool_vendor : (convertTool v x).vendor =
    (x.vendor) := by
  proj convertTool Tool.vendor
@[simp] theorem convertTool_name : (convertTool v x).name =
    (x.name) := by
  proj convertTool Tool.name
@[simp] theorem convertTool_version : (convertTool v x).version =
    (x.version) := by
  proj convertTool Tool.version
@[simp] theorem convertTool_hashes : (convertTool v x).hashes =
    (convertHashes v x.hashes) := by
  proj convertTool Tool.hashes
@[simp] theorem convertTool_externalReferences : (convertTool v x).externalReferences =
    (if v < SpecVersion1_4 then .nil else convertExternalReferences v x.externalReferences) := by
  proj convertTool Tool.externalReferences

end

section
variable (v : Int) (x : Vulnerability)

@[simp] theorem convertVulnerability_bomRef : (convertVulnerability v x).bomRef =
    (x.bomRef) := by
  proj convertVulnerability Vulnerability.bomRef
@[simp] theorem convertVulnerability_id : (convertVulnerability v x).id =
    (x.id) := by
  proj convertVulnerability Vulnerability.id
@[simp] theorem convertVulnerability_source : (convertVulnerability v x).source =
    (x.source) := by
  proj convertVulnerability Vulnerability.source
@[simp] theorem convertVulnerability_references : (convertVulnerability v x).references =
    (x.references) := by
  proj convertVulnerability Vulnerability.references
@[simp] theorem convertVulnerability_ratings : (convertVulnerability v x).ratings =
    (x.ratings.map (convertRating v)) := by
  proj convertVulnerability Vulnerability.ratings
@[simp] theorem convertVulnerability_cwes : (convertVulnerability v x).cwes =
    (x.cwes) := by
  proj convertVulnerability Vulnerability.cwes
@[simp] theorem convertVulnerability_description : (convertVulnerability v x).description =
    (x.description) := by
  proj convertVulnerability Vulnerability.description
@[simp] theorem convertVulnerability_detail : (convertVulnerability v x).detail =
    (x.detail) := by
  proj convertVulnerability Vulnerability.detail
@[simp] theorem convertVulnerability_recommendation : (convertVulnerability v x).recommendation =
    (x.recommendation) := by
  proj convertVulnerability Vulnerability.recommendation
@[simp] theorem convertVulnerability_workaround : (convertVulnerability v x).workaround =
    (if v < SpecVersion1_5 then "" else x.workaround) := by
  proj convertVulnerability Vulnerability.workaround
@[simp] theorem convertVulnerability_proofOfConcept : (convertVulnerability v x).proofOfConcept =
    (if v < SpecVersion1_5 then none else x.proofOfConcept) := by
  proj convertVulnerability Vulnerability.proofOfConcept
@[simp] theorem convertVulnerability_advisories : (convertVulnerability v x).advisories =
    (x.advisories) := by
  proj convertVulnerability Vulnerability.advisories
@[simp] theorem convertVulnerability_created : (convertVulnerability v x).created =
    (x.created) := by
  proj convertVulnerability Vulnerability.created
@[simp] theorem convertVulnerability_published : (convertVulnerability v x).published =
    (x.published) := by
  proj convertVulnerability Vulnerability.published
@[simp] theorem convertVulnerability_updated : (convertVulnerability v x).updated =
    (x.updated) := by
  proj convertVulnerability Vulnerability.updated
@[simp] theorem convertVulnerability_rejected : (convertVulnerability v x).rejected =
    (if v < SpecVersion1_5 then "" else x.rejected) := by
  proj convertVulnerability Vulnerability.rejected
@[simp] theorem convertVulnerability_credits : (convertVulnerability v x).credits =
    (if v < SpecVersion1_6 then x.credits.map (fun c => { c with organizations := c.organizations.map (convertOrganizationalEntity v), individuals := c.individuals.map (convertOrganizationalContact v) }) else x.credits) := by
  proj convertVulnerability Vulnerability.credits
@[simp] theorem convertVulnerability_tools : (convertVulnerability v x).tools =
    (x.tools.map (convertTools v)) := by
  proj convertVulnerability Vulnerability.tools
@[simp] theorem convertVulnerability_analysis : (convertVulnerability v x).analysis =
    (if v < SpecVersion1_5 then x.analysis.map (fun a => { a with firstIssued := "", lastUpdated := "" }) else x.analysis) := by
  proj convertVulnerability Vulnerability.analysis
@[simp] theorem convertVulnerability_affects : (convertVulnerability v x).affects =
    (x.affects) := by
  proj convertVulnerability Vulnerability.affects
@[simp] theorem convertVulnerability_properties : (convertVulnerability v x).properties =
    (x.properties) := by
  proj convertVulnerability Vulnerability.properties

end

section
variable (v : Int) (x : Metadata)

@[simp] theorem convertMetadata_timestamp : (convertMetadata v x).timestamp =
    (x.timestamp) := by
  proj convertMetadata Metadata.timestamp
@[simp] theorem convertMetadata_lifecycles : (convertMetadata v x).lifecycles =
    (if v < SpecVersion1_5 then .nil else x.lifecycles) := by
  proj convertMetadata Metadata.lifecycles
@[simp] theorem convertMetadata_tools : (convertMetadata v x).tools =
    (x.tools.map (convertTools v)) := by
  proj convertMetadata Metadata.tools
@[simp] theorem convertMetadata_authors : (convertMetadata v x).authors =
    (x.authors.map (convertOrganizationalContact v)) := by
  proj convertMetadata Metadata.authors
@[simp] theorem convertMetadata_component : (convertMetadata v x).component =
    (x.component.map (recurseComponent (componentConverter v))) := by
  proj convertMetadata Metadata.component
@[simp] theorem convertMetadata_manufacture : (convertMetadata v x).manufacture =
    (x.manufacture.map (convertOrganizationalEntity v)) := by
  proj convertMetadata Metadata.manufacture
@[simp] theorem convertMetadata_manufacturer : (convertMetadata v x).manufacturer =
    (if v < SpecVersion1_6 then none else x.manufacturer) := by
  proj convertMetadata Metadata.manufacturer
@[simp] theorem convertMetadata_supplier : (convertMetadata v x).supplier =
    (x.supplier.map (convertOrganizationalEntity v)) := by
  proj convertMetadata Metadata.supplier
@[simp] theorem convertMetadata_licenses : (convertMetadata v x).licenses =
    (if v < SpecVersion1_3 then .nil else convertLicenses v x.licenses) := by
  proj convertMetadata Metadata.licenses
@[simp] theorem convertMetadata_properties : (convertMetadata v x).properties =
    (if v < SpecVersion1_3 then .nil else x.properties) := by
  proj convertMetadata Metadata.properties
@[simp] theorem convertMetadata_distributionConstraints : (convertMetadata v x).distributionConstraints =
    (if v < SpecVersion1_7 then none else x.distributionConstraints) := by
  proj convertMetadata Metadata.distributionConstraints

end

section
variable (v : Int) (x : BOM)

@[simp] theorem convert_xmlName : (convert v x).xmlName =
    (x.xmlName) := by
  proj convert BOM.xmlName
@[simp] theorem convert_xmlns : (convert v x).xmlns =
    (mapGet xmlNamespaces v) := by
  proj convert BOM.xmlns
@[simp] theorem convert_jsonSchema : (convert v x).jsonSchema =
    (mapGet jsonSchemas v) := by
  proj convert BOM.jsonSchema
@[simp] theorem convert_bomFormat : (convert v x).bomFormat =
    (x.bomFormat) := by
  proj convert BOM.bomFormat
@[simp] theorem convert_specVersion : (convert v x).specVersion =
    (v) := by
  proj convert BOM.specVersion
@[simp] theorem convert_serialNumber : (convert v x).serialNumber =
    (if v < SpecVersion1_1 then "" else x.serialNumber) := by
  proj convert BOM.serialNumber
@[simp] theorem convert_version : (convert v x).version =
    (x.version) := by
  proj convert BOM.version
@[simp] theorem convert_metadata : (convert v x).metadata =
    (if v < SpecVersion1_2 then none else x.metadata.map (convertMetadata v)) := by
  proj convert BOM.metadata
@[simp] theorem convert_components : (convert v x).components =
    (x.components.map (recurseComponent (componentConverter v))) := by
  proj convert BOM.components
@[simp] theorem convert_services : (convert v x).services =
    (if v < SpecVersion1_2 then .nil else x.services.map (recurseService (serviceConverter v))) := by
  proj convert BOM.services
@[simp] theorem convert_externalReferences : (convert v x).externalReferences =
    (if v < SpecVersion1_1 then .nil else convertExternalReferences v x.externalReferences) := by
  proj convert BOM.externalReferences
@[simp] theorem convert_dependencies : (convert v x).dependencies =
    (if v < SpecVersion1_2 then .nil else if v < SpecVersion1_6 then x.dependencies.map (fun d => { d with provides := .nil }) else x.dependencies) := by
  proj convert BOM.dependencies
@[simp] theorem convert_compositions : (convert v x).compositions =
    (if v < SpecVersion1_3 then .nil else convertCompositions v x.compositions) := by
  proj convert BOM.compositions
@[simp] theorem convert_properties : (convert v x).properties =
    (x.properties) := by
  proj convert BOM.properties
@[simp] theorem convert_vulnerabilities : (convert v x).vulnerabilities =
    (if v < SpecVersion1_4 then .nil else convertVulnerabilities v x.vulnerabilities) := by
  proj convert BOM.vulnerabilities
@[simp] theorem convert_annotations : (convert v x).annotations =
    (if v < SpecVersion1_5 then .nil else convertAnnotations v x.annotations) := by
  proj convert BOM.annotations
@[simp] theorem convert_formulation : (convert v x).formulation =
    (if v < SpecVersion1_5 then .nil else x.formulation) := by
  proj convert BOM.formulation
@[simp] theorem convert_declarations : (convert v x).declarations =
    (if v < SpecVersion1_6 then none else x.declarations) := by
  proj convert BOM.declarations
@[simp] theorem convert_definitions : (convert v x).definitions =
    (if v < SpecVersion1_6 then none else if v < SpecVersion1_7 then x.definitions.map (fun d => { d with patents := .nil }) else x.definitions) := by
  proj convert BOM.definitions
@[simp] theorem convert_citations : (convert v x).citations =
    (if v < SpecVersion1_7 then .nil else x.citations) := by
  proj convert BOM.citations
@[simp] theorem convert_signature : (convert v x).signature =
    (x.signature) := by
  proj convert BOM.signature

end

end Verif
