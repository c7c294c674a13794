{
 "claims": [
  {
   "property": "C01",
   "status": "proved",
   "theorems": [
    "Verif.Props.newBOMLink_ok_iff",
    "Verif.Props.newBOMLink_nil_pointer_panics"
   ],
   "note": "A typed nil pointer makes the call panic; shown separately."
  },
  {
   "property": "C02",
   "status": "proved",
   "theorems": [
    "Verif.Props.parseBOMLink_string",
    "Verif.Props.parse_of_newBOMLink"
   ],
   "note": ""
  },
  {
   "property": "C03",
   "status": "proved",
   "theorems": [
    "Verif.Props.isBOMLink_string"
   ],
   "note": ""
  },
  {
   "property": "C04",
   "status": "proved",
   "theorems": [
    "Verif.Props.parseBOMLink_wellFormed"
   ],
   "note": ""
  },
  {
   "property": "C05",
   "status": "proved",
   "theorems": [
    "Verif.Props.parseBOMLink_canonical"
   ],
   "note": ""
  },
  {
   "property": "C06",
   "status": "proved",
   "theorems": [
    "Verif.Props.string_injective"
   ],
   "note": ""
  },
  {
   "property": "C07",
   "status": "proved",
   "theorems": [
    "Verif.Props.isBOMLink_iff",
    "Verif.Props.parseBOMLink_ok_iff",
    "Verif.Props.isBOMLink_but_not_parsed"
   ],
   "note": ""
  },
  {
   "property": "C08",
   "status": "proved",
   "theorems": [
    "Verif.Props.string_hash_iff",
    "Verif.Props.string_prefix"
   ],
   "note": ""
  },
  {
   "property": "C09",
   "status": "proved",
   "theorems": [
    "Verif.Props.specVersion_official",
    "Verif.Props.specVersion_roundtrip",
    "Verif.Props.specVersionOfString_iff",
    "Verif.Props.officialNames_nodup"
   ],
   "note": ""
  },
  {
   "property": "C10",
   "status": "proved",
   "theorems": [
    "Verif.Props.specVersion_string_total",
    "Verif.Props.mediaType_string_total",
    "Verif.Props.specVersion_str_injective",
    "Verif.Props.mediaType_str_injective"
   ],
   "note": ""
  },
  {
   "property": "C11",
   "status": "proved",
   "theorems": [
    "Verif.Props.withVersion_none_iff",
    "Verif.Props.withVersion_some_iff",
    "Verif.Props.withVersion_injective"
   ],
   "note": ""
  },
  {
   "property": "C12",
   "status": "proved",
   "theorems": [
    "Verif.Props.convert_stamps"
   ],
   "note": ""
  },
  {
   "property": "C13",
   "status": "partial",
   "theorems": [
    "Verif.Props.convert_gates_bom_partial",
    "Verif.Props.convert_gates_metadata",
    "Verif.Props.convert_gates_bom_false",
    "Verif.Props.convert_keeps_signature"
   ],
   "note": "False for the code: signature (1.4) and properties (1.3/1.5) of the BOM are never removed. Proved for all other members and for metadata."
  },
  {
   "property": "C14",
   "status": "partial",
   "theorems": [
    "Verif.Props.convert_gates_components_partial",
    "Verif.Props.convert_gates_components_false",
    "Verif.Props.convert_keeps_component_signature"
   ],
   "note": "False for the code: signature and the bom-ref/address of the supplier are never removed. Proved for all other members at any depth."
  },
  {
   "property": "C15",
   "status": "partial",
   "theorems": [
    "Verif.Props.convert_gates_services_partial",
    "Verif.Props.convert_keeps_service_tags"
   ],
   "note": "False for the code: signature and tags of services are never removed. Proved for all other members at any depth."
  },
  {
   "property": "C16",
   "status": "partial",
   "theorems": [
    "Verif.Props.convert_gates_document_partial",
    "Verif.Props.convert_gates_document_false",
    "Verif.Props.convert_untouched",
    "Verif.Props.convert_gates_licenses_partial"
   ],
   "note": "False for the code: formulation, declarations, tool components, annotator individuals and components, service licenses are never visited. The partial theorem collects what holds everywhere else."
  },
  {
   "property": "C17",
   "status": "proved",
   "theorems": [
    "Verif.Props.convert_idempotent"
   ],
   "note": ""
  },
  {
   "property": "C18",
   "status": "partial",
   "theorems": [
    "Verif.Props.convert_stepwise_partial",
    "Verif.Props.convert_stepwise_false"
   ],
   "note": "False exactly for a final version 1.3/1.4 and an intermediate 1.5/1.6 (evidence licenses); proved for every other pair."
  },
  {
   "property": "C19",
   "status": "partial",
   "theorems": [
    "Verif.Props.convert_latest_partial",
    "Verif.Props.convert_latest_false",
    "Verif.Props.convert_latest_false_rating"
   ],
   "note": "False for cryptographic-asset components and ratings without method; proved for documents with known enumeration values."
  },
  {
   "property": "C20",
   "status": "proved",
   "theorems": [
    "Verif.Props.convert_sameTree",
    "Verif.Props.convert_keeps_places",
    "Verif.Props.convert_keeps_identity",
    "Verif.Props.recurseComponent_go",
    "Verif.Props.recurseService_go"
   ],
   "note": ""
  },
  {
   "property": "C21",
   "status": "proved",
   "theorems": [
    "Verif.Props.convert_keeps"
   ],
   "note": "One theorem: per field, kept, or erased because newer than v, or a documented default."
  },
  {
   "property": "C22",
   "status": "proved",
   "theorems": [
    "Verif.Props.convert_hashes_exact",
    "Verif.Props.convert_tool_hashes_exact",
    "Verif.Props.convert_hashes_presence"
   ],
   "note": ""
  },
  {
   "property": "C23",
   "status": "proved",
   "theorems": [
    "Verif.Props.convert_tools_legacy",
    "Verif.Props.convert_tools_kept",
    "Verif.Props.convert_tools_not_both",
    "Verif.Props.convert_tools_places"
   ],
   "note": ""
  },
  {
   "property": "C24",
   "status": "proved",
   "theorems": [
    "Verif.Props.convert_licenses_exact",
    "Verif.Props.convert_licenses_kept",
    "Verif.Props.convert_licenses_places"
   ],
   "note": ""
  },
  {
   "property": "C25",
   "status": "proved",
   "theorems": [
    "Verif.Props.convert_evidence_identity"
   ],
   "note": ""
  },
  {
   "property": "C26",
   "status": "proved",
   "theorems": [
    "Verif.Props.support_monotone"
   ],
   "note": ""
  },
  {
   "property": "C27",
   "status": "partial",
   "theorems": [
    "Verif.Props.constants_supported_partial",
    "Verif.Props.cryptographic_asset_unsupported"
   ],
   "note": "False for cryptographic-asset only."
  },
  {
   "property": "C28",
   "status": "proved",
   "theorems": [
    "Verif.Props.encodeVersion_leaves_caller",
    "Verif.Props.encodeVersion_starts_from_copy",
    "Verif.Props.copy_shares_nothing",
    "Verif.Props.shallow_copy_interferes",
    "Verif.Props.reads_unique"
   ],
   "note": "For whatever conversion and encoding do with the copy, at every step of the execution."
  },
  {
   "property": "C29",
   "status": "partial",
   "theorems": [
    "Verif.Props.copy_eq_iff",
    "Verif.Props.copy_copyable",
    "Verif.Props.copy_same_encoding_partial",
    "Verif.Props.copy_same_encoding_fails",
    "Verif.Props.copy_same_encoding_only_if"
   ],
   "note": "Exact: the copy equals the BOM iff it has no pointer to a zero value and no empty list. False otherwise: false/0 behind a pointer and empty lists are missing in the encoding of the copy (witness)."
  },
  {
   "property": "C30",
   "status": "proved",
   "theorems": [
    "Verif.Props.json_unsupported_iff",
    "Verif.Props.encodeVersion_unsupported_iff",
    "Verif.Props.json_refused_iff",
    "Verif.Props.json_version_refused_iff",
    "Verif.Props.json_all_or_nothing"
   ],
   "note": "Writers are modelled as a sequence of Write calls, each accepted or not."
  },
  {
   "property": "C31",
   "status": "proved",
   "theorems": [
    "Verif.Props.encodeVersion_reports",
    "Verif.Props.encodeVersion_eq_encode_convert",
    "Verif.Props.encodeVersion_latest",
    "Verif.Props.encodeVersion_copy",
    "Verif.Props.json_text_encodeVersion",
    "Verif.Props.encodeVersionXML_reports",
    "Verif.Props.encodeVersionXML_eq_encode_convert",
    "Verif.Props.encodeVersionXML_latest",
    "Verif.Props.encodeVersionXML_copy"
   ],
   "note": ""
  },
  {
   "property": "C32",
   "status": "proved",
   "theorems": [
    "Verif.Props.json_round_trip",
    "Verif.Props.json_decodes_canonical",
    "Verif.Props.json_text_round_trip"
   ],
   "note": "Exact: the round trip succeeds if and only if the BOM is plain (`BOM.Plain`, a predicate generated from the Go types). On syntax trees and on texts; documents up to the nesting limit of encoding/json."
  },
  {
   "property": "C33",
   "status": "partial",
   "theorems": [
    "Verif.Props.json_stable_partial",
    "Verif.Props.json_text_stable_partial",
    "Verif.Props.json_stable_fails_on_duplicates"
   ],
   "note": "False for documents that repeat a member name (witness); proved for all others."
  },
  {
   "property": "C34",
   "status": "partial",
   "theorems": [
    "Verif.Props.json_encodes_iff",
    "Verif.Props.xml_encodes_iff",
    "Verif.Props.json_asserter_dropped"
   ],
   "note": "Exact characterisation of what can be written in either format, at any depth. Asserters with several alternatives are written without error in JSON (witness)."
  },
  {
   "property": "C35",
   "status": "partial",
   "theorems": [
    "Verif.Props.json_decode_plain_partial",
    "Verif.Props.tools_decode_one",
    "Verif.Props.evidenceIdentity_decode_one",
    "Verif.Props.certificateState_decode_one",
    "Verif.Props.certificateExtension_decode_one",
    "Verif.Props.patentChoice_decode_one",
    "Verif.Props.asserter_decode_one",
    "Verif.Props.dataset_decode_one",
    "Verif.Props.environmentVariable_decode_one",
    "Verif.Props.ikev2Auth_decode_one",
    "Verif.Props.ikev2Enc_decode_one",
    "Verif.Props.ikev2Integ_decode_one",
    "Verif.Props.ikev2Ke_decode_one",
    "Verif.Props.ikev2Prf_decode_one",
    "Verif.Props.json_empty_tools_not_rewritable",
    "Verif.Props.json_decode_two_alternatives"
   ],
   "note": "At most one alternative: proved for each type and any JSON value. False: an empty tools object decodes but cannot be encoded again; a repeated member name decodes into the old element, which may set both alternatives."
  },
  {
   "property": "C36",
   "status": "proved",
   "theorems": [
    "Verif.Props.json_content_only",
    "Verif.Props.json_unknown_ignored",
    "Verif.Props.json_case_ignored",
    "Verif.Props.json_exchange_ignored",
    "Verif.Props.json_order_irrelevant"
   ],
   "note": ""
  },
  {
   "property": "C37",
   "status": "proved",
   "theorems": [
    "Verif.Props.json_options_same",
    "Verif.Props.json_options_decode",
    "Verif.Props.json_setters"
   ],
   "note": ""
  },
  {
   "property": "C38",
   "status": "proved",
   "theorems": [
    "Verif.Props.json_well_formed"
   ],
   "note": "Well-formed in the sense of a transcription of the grammar of RFC 8259 (Spec/JsonText); texts are sequences of characters, UTF-8 is not modelled."
  },
  {
   "property": "C39",
   "status": "proved",
   "theorems": [
    "Verif.Props.xml_version_from_namespace",
    "Verif.Props.xml_order_irrelevant"
   ],
   "note": ""
  },
  {
   "property": "C40",
   "status": "proved",
   "theorems": [
    "Verif.Props.xml_round_trip",
    "Verif.Props.xml_round_trip_only",
    "Verif.Props.xml_round_trip_iff"
   ],
   "note": "Exact: the round trip succeeds if and only if the BOM is `BOM.XPlain`, a predicate generated from the Go types; the converse for BOMs whose integers are Go integers. On trees of elements; for texts see C54."
  },
  {
   "property": "C41",
   "status": "partial",
   "theorems": [
    "Verif.Props.xml_dependency",
    "Verif.Props.xml_license",
    "Verif.Props.xml_copyright",
    "Verif.Props.xml_evidence",
    "Verif.Props.xml_dataClassification",
    "Verif.Props.xml_toolsChoice",
    "Verif.Props.xml_certificateState",
    "Verif.Props.xml_certificateExtension",
    "Verif.Props.xml_asserterChoice",
    "Verif.Props.xml_ikev2Auth",
    "Verif.Props.xml_ikev2Enc",
    "Verif.Props.xml_ikev2Integ",
    "Verif.Props.xml_ikev2Ke",
    "Verif.Props.xml_ikev2Prf",
    "Verif.Props.xml_mlDatasetChoice",
    "Verif.Props.xml_definitions",
    "Verif.Props.xml_licenses",
    "Verif.Props.xml_environmentVariables",
    "Verif.Props.xml_evidence_classification_lost",
    "Verif.Props.xml_evidence_classification_ignored"
   ],
   "note": "Proved for every type in canonical form. False for the data classification of evidence in declarations: it is written under another name and lost, and that of a document is passed over (witnesses)."
  },
  {
   "property": "C42",
   "status": "partial",
   "theorems": [
    "Verif.Props.newBOM_convert",
    "Verif.Props.newBOM_json_partial",
    "Verif.Props.newBOM_json_namespace_lost",
    "Verif.Props.newBOM_xml_partial"
   ],
   "note": "Conversion, JSON and XML. Reading back the JSON loses the XML namespace that NewBOM sets; reading back the XML loses the JSON schema and the format."
  },
  {
   "property": "C43",
   "status": "proved",
   "theorems": [
    "Verif.Props.encodeVersion_decodes",
    "Verif.Props.encodeVersion_decodes_converted",
    "Verif.Props.json_text_encodeVersion_decodes"
   ],
   "note": "For BOMs whose integers are Go integers and whose choices have the member by which they are recognised (`BOM.Regular`). Fixed by conversion up to the XML namespace, which JSON does not have."
  },
  {
   "property": "C44",
   "status": "partial",
   "theorems": [
    "Verif.Props.encodeVersion_total_partial",
    "Verif.Props.encodeVersion_fails_on_empty_tools",
    "Verif.Props.encodeVersionXML_total",
    "Verif.Props.encodeVersionXML_empty_tools"
   ],
   "note": "True for XML. For JSON false for a choice of tools without entries (witness: can be encoded, but by EncodeVersion in no version); proved for all other BOMs."
  },
  {
   "property": "C45",
   "status": "partial",
   "theorems": [
    "Verif.Props.supportsHashAlgorithm_schema",
    "Verif.Props.supportsScoringMethod_schema",
    "Verif.Props.supportsCompositionAggregate_schema",
    "Verif.Props.supportsCryptoPrimitive_schema",
    "Verif.Props.supportsCryptoProtocolType_schema",
    "Verif.Props.supportsComponentType_schema_partial",
    "Verif.Props.supportsScope_schema_partial",
    "Verif.Props.supportsExternalReferenceType_schema_partial",
    "Verif.Props.cryptographic_asset_unsupported",
    "Verif.Props.excluded_scope_at_1_1",
    "Verif.Props.premature_reference_types",
    "Verif.Props.constants_in_schema"
   ],
   "note": "Exact for five enumerations; the exceptions of the other three (cryptographic-asset, scope excluded at 1.1, seven reference types) are proved to be disagreements."
  },
  {
   "property": "C46",
   "status": "proved",
   "theorems": [
    "Verif.Props.convert_keeps"
   ],
   "note": ""
  },
  {
   "property": "C47",
   "status": "proved",
   "theorems": [
    "Verif.Props.json_malformed_refused",
    "Verif.Props.json_layout_irrelevant",
    "Verif.Props.json_decoded_well_formed"
   ],
   "note": ""
  },
  {
   "property": "C48",
   "status": "proved",
   "theorems": [
    "Verif.Props.json_html_safe",
    "Verif.Props.json_one_line",
    "Verif.Props.json_no_separators"
   ],
   "note": ""
  },
  {
   "property": "C49",
   "status": "partial",
   "theorems": [
    "Verif.Props.xml_reread_partial",
    "Verif.Props.xml_reread_unstable",
    "Verif.Props.xml_read_unwritable"
   ],
   "note": "False for documents with empty elements (witness) and for licenses with identifier and name, which are read but cannot be written (witness); proved for what XML can represent."
  },
  {
   "property": "C50",
   "status": "proved",
   "theorems": [
    "Verif.Props.xml_encodes_iff",
    "Verif.Props.xml_output_decodes"
   ],
   "note": "What is written is decoded if the integers are Go integers (in the model they can be larger)."
  },
  {
   "property": "C51",
   "status": "proved",
   "theorems": [
    "Verif.Props.encodeVersionXML_total",
    "Verif.Props.encodeVersionXML_reports",
    "Verif.Props.encodeVersionXML_decodes",
    "Verif.Props.encodeVersionXML_decodes_converted"
   ],
   "note": ""
  },
  {
   "property": "C52",
   "status": "partial",
   "theorems": [
    "Verif.Props.encodeVersion_declared_iff",
    "Verif.Props.encodeVersion_declared_partial",
    "Verif.Props.encodeVersion_undeclared",
    "Verif.Props.encode_declared_iff",
    "Verif.Props.richBOM_fits"
   ],
   "note": "Exact: true if and only if the BOM has none of the contents listed in `BOM.FitsConverted`. False otherwise: ten BOMs with contents that the conversion leaves behind (signatures, properties of the BOM, tags of services, licenses as evidence, tools that are components, addresses of suppliers, the formulation, asserters of patents, hashes that become null)."
  },
  {
   "property": "C53",
   "status": "partial",
   "theorems": [
    "Verif.Props.encodeVersionXML_valid_iff_converted",
    "Verif.Props.encodeVersionXML_valid_iff_copyable",
    "Verif.Props.encodeVersionXML_valid_partial",
    "Verif.Props.encodeVersionXML_valid_iff",
    "Verif.Props.encodeVersionXML_invalid",
    "Verif.Props.encodeXML_valid_iff",
    "Verif.Props.encodeXML_misplaced",
    "Verif.Props.richXBOM_fits"
   ],
   "note": "Exact: true if and only if the copy of the BOM has none of the contents listed in `BOM.XFitsConverted`. False otherwise: twelve BOMs with contents that the conversion leaves behind, and seven components that are not written as the schema declares even in version 1.7. Simple types (enumerations, patterns, dates) and uniqueness of references are not looked at."
  },
  {
   "property": "C54",
   "status": "proved",
   "theorems": [
    "Verif.Props.xml_text_decodes",
    "Verif.Props.xml_text_round_trip",
    "Verif.Props.xml_text_output_decodes",
    "Verif.Props.xml_text_encodeVersion_decodes"
   ],
   "note": "For all documents up to the nesting limit of encoding/xml and BOMs whose integers are Go integers."
  },
  {
   "property": "C55",
   "status": "proved",
   "theorems": [
    "Verif.Props.xml_well_formed",
    "Verif.Props.strict_unique"
   ],
   "note": "Well-formed in the sense of a part of the grammar of XML 1.0 (Spec/XmlStrict) that leaves no room for differences between processors; texts are sequences of characters, UTF-8 is not modelled."
  },
  {
   "property": "C56",
   "status": "proved",
   "theorems": [
    "Verif.Props.xml_setters",
    "Verif.Props.xml_options_same",
    "Verif.Props.xml_options_decode"
   ],
   "note": ""
  },
  {
   "property": "C57",
   "status": "proved",
   "theorems": [
    "Verif.Props.xml_malformed_refused",
    "Verif.Props.xml_decoded_well_formed",
    "Verif.Props.xml_layout_irrelevant"
   ],
   "note": "For any tables of the characters outside ASCII that names may have, and any rule for the contents of XML declarations."
  },
  {
   "property": "C58",
   "status": "proved",
   "theorems": [
    "Verif.Props.xml_success_iff",
    "Verif.Props.xml_success_text",
    "Verif.Props.xml_header_first",
    "Verif.Props.xml_writes_prefix"
   ],
   "note": "Writers are modelled as a sequence of Write calls, each accepted or not."
  },
  {
   "property": "C59",
   "status": "proved",
   "theorems": [
    "Verif.Props.xml_root_attrs"
   ],
   "note": ""
  },
  {
   "property": "C60",
   "status": "partial",
   "theorems": [
    "Verif.Props.json_to_xml_unversioned",
    "Verif.Props.xml_to_json_unidentified",
    "Verif.Props.to_xml_contents_partial",
    "Verif.Props.to_json_contents_partial",
    "Verif.Props.json_xml_json_partial"
   ],
   "note": "False: Encode as XML of any BOM that was read from JSON is in no namespace and reads back without a version; JSON of any BOM that was read from XML has an empty bomFormat (by EncodeVersion too), which the schema does not allow. The contents are kept by EncodeVersion in the latest version, for BOMs that both formats and the copy can represent."
  },
  {
   "property": "C61",
   "status": "proved",
   "theorems": [
    "Verif.Props.conversion_as_written",
    "Verif.Props.conversion_as_written_stable",
    "Verif.Props.convert_in_place",
    "Verif.Props.bom_tree_injective"
   ],
   "note": "convert.go statement by statement (Model/GoConvert) against the functions on values (Model/Convert), for any number of steps that is large enough for the depth of the BOM."
  },
  {
   "property": "C62",
   "status": "proved",
   "theorems": [
    "Verif.Props.json_members_advisory",
    "Verif.Props.json_members_affectedVersions",
    "Verif.Props.json_members_affects",
    "Verif.Props.json_members_attachedText",
    "Verif.Props.json_members_property",
    "Verif.Props.json_members_componentDataContents",
    "Verif.Props.json_members_componentDataGraphic",
    "Verif.Props.json_members_componentDataGraphics",
    "Verif.Props.json_members_organizationalContact",
    "Verif.Props.json_members_postalAddress",
    "Verif.Props.json_members_organizationalEntity",
    "Verif.Props.json_members_componentDataGovernanceResponsibleParty",
    "Verif.Props.json_members_dataGovernance",
    "Verif.Props.json_members_componentData",
    "Verif.Props.json_members_hash",
    "Verif.Props.json_members_relatedCryptographicAsset",
    "Verif.Props.json_members_predefinedCertificateState",
    "Verif.Props.json_members_customCertificateState",
    "Verif.Props.json_members_commonCertificateExtension",
    "Verif.Props.json_members_customCertificateExtension",
    "Verif.Props.json_members_certificateProperties",
    "Verif.Props.json_members_cryptoAlgorithmProperties",
    "Verif.Props.json_members_cipherSuite",
    "Verif.Props.json_members_ikev2Auth",
    "Verif.Props.json_members_ikev2Enc",
    "Verif.Props.json_members_ikev2Integ",
    "Verif.Props.json_members_ikev2Ke",
    "Verif.Props.json_members_ikev2Prf",
    "Verif.Props.json_members_ikev2TransformTypes",
    "Verif.Props.json_members_cryptoProtocolProperties",
    "Verif.Props.json_members_securedBy",
    "Verif.Props.json_members_relatedCryptoMaterialProperties",
    "Verif.Props.json_members_cryptoProperties",
    "Verif.Props.json_members_callstackFrame",
    "Verif.Props.json_members_callstack",
    "Verif.Props.json_members_copyright",
    "Verif.Props.json_members_evidenceIdentityMethod",
    "Verif.Props.json_members_evidenceIdentity",
    "Verif.Props.json_members_evidenceOccurrence",
    "Verif.Props.json_members_organizationalEntityOrContact",
    "Verif.Props.json_members_licensing",
    "Verif.Props.json_members_license",
    "Verif.Props.json_members_licenseExpressionDetail",
    "Verif.Props.json_members_licenseChoice",
    "Verif.Props.json_members_evidence",
    "Verif.Props.json_members_externalReference",
    "Verif.Props.json_members_jsfPublicKey",
    "Verif.Props.json_members_jsfSigner",
    "Verif.Props.json_members_jsfSignature",
    "Verif.Props.json_members_mlModelCO2Measure",
    "Verif.Props.json_members_mlModelEnergyMeasure",
    "Verif.Props.json_members_mlModelEnergyProvider",
    "Verif.Props.json_members_mlModelEnergyConsumption",
    "Verif.Props.json_members_mlModelCardEnvironmentalConsiderations",
    "Verif.Props.json_members_mlModelCardEthicalConsideration",
    "Verif.Props.json_members_mlModelCardFairnessAssessment",
    "Verif.Props.json_members_mlModelCardConsiderations",
    "Verif.Props.json_members_mlInputOutputParameters",
    "Verif.Props.json_members_mlModelParametersApproach",
    "Verif.Props.json_members_mlModelParameters",
    "Verif.Props.json_members_mlPerformanceMetricConfidenceInterval",
    "Verif.Props.json_members_mlPerformanceMetric",
    "Verif.Props.json_members_mlQuantitativeAnalysis",
    "Verif.Props.json_members_mlModelCard",
    "Verif.Props.json_members_identifiableAction",
    "Verif.Props.json_members_commit",
    "Verif.Props.json_members_diff",
    "Verif.Props.json_members_source",
    "Verif.Props.json_members_issue",
    "Verif.Props.json_members_patch",
    "Verif.Props.json_members_pedigree",
    "Verif.Props.json_members_note",
    "Verif.Props.json_members_releaseNotes",
    "Verif.Props.json_members_swid",
    "Verif.Props.json_members_patentAssertion",
    "Verif.Props.json_members_component",
    "Verif.Props.json_members_dataClassification",
    "Verif.Props.json_members_service",
    "Verif.Props.json_members_annotator",
    "Verif.Props.json_members_annotation",
    "Verif.Props.json_members_assessor",
    "Verif.Props.json_members_attestationConformance",
    "Verif.Props.json_members_attestationConfidence",
    "Verif.Props.json_members_attestationMap",
    "Verif.Props.json_members_attestation",
    "Verif.Props.json_members_composition",
    "Verif.Props.json_members_claim",
    "Verif.Props.json_members_evidenceDataContents",
    "Verif.Props.json_members_evidenceData",
    "Verif.Props.json_members_declarationEvidence",
    "Verif.Props.json_members_targets",
    "Verif.Props.json_members_signatory",
    "Verif.Props.json_members_affirmation",
    "Verif.Props.json_members_declarations",
    "Verif.Props.json_members_priorityApplication",
    "Verif.Props.json_members_patent",
    "Verif.Props.json_members_patentFamily",
    "Verif.Props.json_members_standardRequirement",
    "Verif.Props.json_members_standardLevel",
    "Verif.Props.json_members_standardDefinition",
    "Verif.Props.json_members_definitions",
    "Verif.Props.json_members_dependency",
    "Verif.Props.json_members_resourceReferenceChoice",
    "Verif.Props.json_members_parameter",
    "Verif.Props.json_members_taskInput",
    "Verif.Props.json_members_taskOutput",
    "Verif.Props.json_members_taskCommand",
    "Verif.Props.json_members_taskStep",
    "Verif.Props.json_members_event",
    "Verif.Props.json_members_taskTriggerCondition",
    "Verif.Props.json_members_taskTrigger",
    "Verif.Props.json_members_volume",
    "Verif.Props.json_members_taskWorkspace",
    "Verif.Props.json_members_task",
    "Verif.Props.json_members_workflow",
    "Verif.Props.json_members_formula",
    "Verif.Props.json_members_lifecycle",
    "Verif.Props.json_members_tool",
    "Verif.Props.json_members_distributionConstraints",
    "Verif.Props.json_members_metadata",
    "Verif.Props.json_members_credits",
    "Verif.Props.json_members_proofOfConcept",
    "Verif.Props.json_members_vulnerabilityAnalysis",
    "Verif.Props.json_members_vulnerabilityRating",
    "Verif.Props.json_members_vulnerabilityReference",
    "Verif.Props.json_members_vulnerability",
    "Verif.Props.json_members_citation",
    "Verif.Props.json_members_bom",
    "Verif.Props.json_form_tools_list",
    "Verif.Props.json_form_tools_object",
    "Verif.Props.json_form_tools_read",
    "Verif.Props.json_form_identities",
    "Verif.Props.json_form_certificateState",
    "Verif.Props.json_form_certificateExtension",
    "Verif.Props.json_form_patent",
    "Verif.Props.json_form_asserter",
    "Verif.Props.json_form_dataset",
    "Verif.Props.json_form_environmentVariable",
    "Verif.Props.json_form_ikev2"
   ],
   "note": "One theorem per type that encoding/json writes as a struct (json_members_*) and per type with a choice between forms (json_form_*)."
  },
  {
   "property": "C63",
   "status": "proved",
   "theorems": [
    "Verif.Props.xml_elements_advisory",
    "Verif.Props.xml_elements_affectedVersions",
    "Verif.Props.xml_elements_affects",
    "Verif.Props.xml_elements_attachedText",
    "Verif.Props.xml_elements_property",
    "Verif.Props.xml_elements_componentDataContents",
    "Verif.Props.xml_elements_componentDataGraphic",
    "Verif.Props.xml_elements_componentDataGraphics",
    "Verif.Props.xml_elements_organizationalContact",
    "Verif.Props.xml_elements_postalAddress",
    "Verif.Props.xml_elements_organizationalEntity",
    "Verif.Props.xml_elements_componentDataGovernanceResponsibleParty",
    "Verif.Props.xml_elements_dataGovernance",
    "Verif.Props.xml_elements_componentData",
    "Verif.Props.xml_elements_hash",
    "Verif.Props.xml_elements_relatedCryptographicAsset",
    "Verif.Props.xml_elements_certificateProperties",
    "Verif.Props.xml_elements_cryptoAlgorithmProperties",
    "Verif.Props.xml_elements_cipherSuite",
    "Verif.Props.xml_elements_ikev2Auth",
    "Verif.Props.xml_elements_ikev2Enc",
    "Verif.Props.xml_elements_ikev2Integ",
    "Verif.Props.xml_elements_ikev2Ke",
    "Verif.Props.xml_elements_ikev2Prf",
    "Verif.Props.xml_elements_ikev2TransformTypes",
    "Verif.Props.xml_elements_cryptoProtocolProperties",
    "Verif.Props.xml_elements_securedBy",
    "Verif.Props.xml_elements_relatedCryptoMaterialProperties",
    "Verif.Props.xml_elements_cryptoProperties",
    "Verif.Props.xml_elements_callstackFrame",
    "Verif.Props.xml_elements_callstack",
    "Verif.Props.xml_elements_evidenceIdentityMethod",
    "Verif.Props.xml_elements_evidenceIdentity",
    "Verif.Props.xml_elements_evidenceOccurrence",
    "Verif.Props.xml_elements_organizationalEntityOrContact",
    "Verif.Props.xml_elements_licensing",
    "Verif.Props.xml_elements_license",
    "Verif.Props.xml_elements_externalReference",
    "Verif.Props.xml_elements_mlModelCO2Measure",
    "Verif.Props.xml_elements_mlModelEnergyMeasure",
    "Verif.Props.xml_elements_mlModelEnergyProvider",
    "Verif.Props.xml_elements_mlModelEnergyConsumption",
    "Verif.Props.xml_elements_mlModelCardEnvironmentalConsiderations",
    "Verif.Props.xml_elements_mlModelCardEthicalConsideration",
    "Verif.Props.xml_elements_mlModelCardFairnessAssessment",
    "Verif.Props.xml_elements_mlModelCardConsiderations",
    "Verif.Props.xml_elements_mlInputOutputParameters",
    "Verif.Props.xml_elements_mlModelParametersApproach",
    "Verif.Props.xml_elements_mlModelParameters",
    "Verif.Props.xml_elements_mlPerformanceMetricConfidenceInterval",
    "Verif.Props.xml_elements_mlPerformanceMetric",
    "Verif.Props.xml_elements_mlQuantitativeAnalysis",
    "Verif.Props.xml_elements_mlModelCard",
    "Verif.Props.xml_elements_identifiableAction",
    "Verif.Props.xml_elements_commit",
    "Verif.Props.xml_elements_diff",
    "Verif.Props.xml_elements_source",
    "Verif.Props.xml_elements_issue",
    "Verif.Props.xml_elements_patch",
    "Verif.Props.xml_elements_pedigree",
    "Verif.Props.xml_elements_note",
    "Verif.Props.xml_elements_releaseNotes",
    "Verif.Props.xml_elements_swid",
    "Verif.Props.xml_elements_patentAssertion",
    "Verif.Props.xml_elements_component",
    "Verif.Props.xml_elements_service",
    "Verif.Props.xml_elements_annotator",
    "Verif.Props.xml_elements_annotation",
    "Verif.Props.xml_elements_assessor",
    "Verif.Props.xml_elements_attestationConformance",
    "Verif.Props.xml_elements_attestationConfidence",
    "Verif.Props.xml_elements_attestationMap",
    "Verif.Props.xml_elements_attestation",
    "Verif.Props.xml_elements_composition",
    "Verif.Props.xml_elements_claim",
    "Verif.Props.xml_elements_evidenceDataContents",
    "Verif.Props.xml_elements_evidenceData",
    "Verif.Props.xml_elements_declarationEvidence",
    "Verif.Props.xml_elements_targets",
    "Verif.Props.xml_elements_signatory",
    "Verif.Props.xml_elements_affirmation",
    "Verif.Props.xml_elements_declarations",
    "Verif.Props.xml_elements_priorityApplication",
    "Verif.Props.xml_elements_patent",
    "Verif.Props.xml_elements_patentFamily",
    "Verif.Props.xml_elements_standardRequirement",
    "Verif.Props.xml_elements_standardLevel",
    "Verif.Props.xml_elements_standardDefinition",
    "Verif.Props.xml_elements_resourceReferenceChoice",
    "Verif.Props.xml_elements_parameter",
    "Verif.Props.xml_elements_taskInput",
    "Verif.Props.xml_elements_taskOutput",
    "Verif.Props.xml_elements_taskCommand",
    "Verif.Props.xml_elements_taskStep",
    "Verif.Props.xml_elements_event",
    "Verif.Props.xml_elements_taskTriggerCondition",
    "Verif.Props.xml_elements_taskTrigger",
    "Verif.Props.xml_elements_volume",
    "Verif.Props.xml_elements_taskWorkspace",
    "Verif.Props.xml_elements_task",
    "Verif.Props.xml_elements_workflow",
    "Verif.Props.xml_elements_formula",
    "Verif.Props.xml_elements_lifecycle",
    "Verif.Props.xml_elements_tool",
    "Verif.Props.xml_elements_distributionConstraints",
    "Verif.Props.xml_elements_metadata",
    "Verif.Props.xml_elements_credits",
    "Verif.Props.xml_elements_proofOfConcept",
    "Verif.Props.xml_elements_vulnerabilityAnalysis",
    "Verif.Props.xml_elements_vulnerabilityRating",
    "Verif.Props.xml_elements_vulnerabilityReference",
    "Verif.Props.xml_elements_vulnerability",
    "Verif.Props.xml_elements_citation",
    "Verif.Props.xml_elements_bom",
    "Verif.Props.xml_form_reference",
    "Verif.Props.xml_form_copyright",
    "Verif.Props.xml_form_dependency",
    "Verif.Props.xml_form_licenses_append",
    "Verif.Props.xml_form_licenses_license",
    "Verif.Props.xml_form_licenses_expression",
    "Verif.Props.xml_form_licenses_detailed",
    "Verif.Props.xml_form_expressionDetail",
    "Verif.Props.xml_form_environmentVariables",
    "Verif.Props.xml_form_certificateState",
    "Verif.Props.xml_form_certificateExtension",
    "Verif.Props.xml_form_asserter",
    "Verif.Props.xml_form_dataset",
    "Verif.Props.xml_form_ikev2_reference",
    "Verif.Props.xml_form_ikev2_fields",
    "Verif.Props.xml_form_evidence_written",
    "Verif.Props.xml_form_evidence_read",
    "Verif.Props.xml_form_tools_written",
    "Verif.Props.xml_form_tools_read",
    "Verif.Props.xml_form_dataClassification_written",
    "Verif.Props.xml_form_dataClassification_read",
    "Verif.Props.xml_form_definitions_written",
    "Verif.Props.xml_form_definitions_read"
   ],
   "note": "One theorem per type that encoding/xml writes as a struct (xml_elements_*); the types with MarshalXML and UnmarshalXML methods in xml_form_*."
  },
  {
   "property": "C64",
   "status": "partial",
   "theorems": [
    "Verif.Props.encodeVersion_required_iff",
    "Verif.Props.encodeVersion_required_copied",
    "Verif.Props.encodeVersion_required_partial",
    "Verif.Props.convert_required",
    "Verif.Props.encode_required_iff",
    "Verif.Props.encodeVersion_lacks_required",
    "Verif.Props.encode_lacks_component_version",
    "Verif.Props.encode_empty_key"
   ],
   "note": "Proved of every BOM whose deep copy has what is required, and of the conversion without exception. False otherwise: the copy drops the confidence 0 of a method of identification and empty lists of subjects (witnesses). Negative requirements and if/then are not looked at. Encode does not supply the version of components; a signer without a key is written with an empty one."
  },
  {
   "property": "C65",
   "status": "partial",
   "theorems": [
    "Verif.Props.encodeVersion_listed_iff",
    "Verif.Props.encodeVersion_listed_copyable",
    "Verif.Props.encodeVersion_listed_partial",
    "Verif.Props.encode_listed_iff",
    "Verif.Props.converted_listed",
    "Verif.Props.newStringsBOM_listed",
    "Verif.Props.encodeVersion_late_strings"
   ],
   "note": "An exact condition on the BOM is proved for every version; it says nothing of types and scopes of components, of the algorithms of their hashes and of the methods of ratings, which are always converted, and holds of every BOM with strings of the version only. False in general: fields of identities, hashes of external references, seven types of references, and all that conversion does not visit (formulation, tools that are components, ...) keep strings of later versions (witnesses)."
  },
  {
   "property": "C66",
   "status": "partial",
   "theorems": [
    "Verif.Props.constants_enumerated_partial",
    "Verif.Props.volume_mode_not_enumerated",
    "Verif.Props.schema_identifier_partial",
    "Verif.Props.schema_identifier_1_2"
   ],
   "note": "Proved of all enumerated fields but the mode of a volume, where the exported VolumeModeFilesystem is in no schema, and of all identifiers but that of version 1.2, where the strict schema enumerates another one."
  },
  {
   "property": "C67",
   "status": "partial",
   "theorems": [
    "Verif.Props.decode_refuses_iff",
    "Verif.Props.decodeText_refuses_iff",
    "Verif.Props.decode_accepts_partial",
    "Verif.Props.declared_refused",
    "Verif.Props.jsonClassifiedDocument_declared",
    "Verif.Props.assertedDocument_declared",
    "Verif.Props.lateDocument_declared",
    "Verif.Props.futureDocument_declared"
   ],
   "note": "The refused documents are characterised exactly, for all documents that have only what the schemas declare. False in general: the classification of evidence data, an asserter given by reference, integers beyond 64 bits, numbers beyond the range of floats and unknown versions are refused although the schemas allow them (witnesses)."
  },
  {
   "property": "C68",
   "status": "partial",
   "theorems": [
    "Verif.Props.decode_encode_carried_partial",
    "Verif.Props.single_signature_lost",
    "Verif.Props.signature_lost",
    "Verif.Props.modelCard_properties_lost",
    "Verif.Props.asserter_lost",
    "Verif.Props.patentAssignee_lost"
   ],
   "note": "Proved for all members but those listed in `Hidden`, which are lost: the signature of a single signer, the properties of a model card, asserters and assignees of patents, and the members of the alternative that a choice does not take."
  },
  {
   "property": "C69",
   "status": "partial",
   "theorems": [
    "Verif.Props.decodeJSON_fails_alike_partial",
    "Verif.Props.decodeXML_fails_alike_partial",
    "Verif.Props.decodeJSON_absent",
    "Verif.Props.decodeXML_absent",
    "Verif.Props.decodeXML_appends",
    "Verif.Props.decodeJSON_merges",
    "Verif.Props.decodeXML_doubles"
   ],
   "note": "Whether Decode fails depends on the document alone (proved). What it yields does not: fields that the document does not mention keep their values, in JSON the elements of lists are read into the old elements (a component without package URL gets that of the old one: `decodeJSON_merges`), in XML lists are appended to the old ones (`decodeXML_appends`, for all lists of the BOM; `decodeXML_doubles`)."
  },
  {
   "property": "C70",
   "status": "proved",
   "theorems": [
    "Verif.Props.decodeJSON_again"
   ],
   "note": "For JSON only; in XML decoding again doubles the lists (C69)."
  },
  {
   "property": "C71",
   "status": "proved",
   "theorems": [
    "Verif.Props.decodeXML_refuses_iff",
    "Verif.Props.decodeXMLText_refuses_iff",
    "Verif.Props.decodeXML_accepts",
    "Verif.Props.xs_boolean_read",
    "Verif.Props.xs_integer_read",
    "Verif.Props.xs_integer_refused",
    "Verif.Props.decodeXML_refuses_huge"
   ],
   "note": "Form means what `XValid` says: simple types and keys are not looked at, and wildcards are left out, so documents with extension elements of other namespaces are not covered (some hand-written decoders refuse them). For texts it is assumed that they are not nested deeper than encoding/xml allows."
  },
  {
   "property": "C72",
   "status": "partial",
   "theorems": [
    "Verif.Props.decodeXML_encodeXML_carried",
    "Verif.Props.decodeXMLText_encodeXML_carried",
    "Verif.Props.decodeXML_encodeXML_said",
    "Verif.Props.decodeXML_encodeXML_loses"
   ],
   "note": "Partial since the code loses things that the schemas declare: `decodeXML_encodeXML_loses` is a valid 1.6 document whose occurrence line and symbol, SWID url, claim target and nested dependency are gone after reading and writing. The tables XPlace.unread, XPlace.unreadAttrs, XPlace.single, XPlace.Merged and ZeroLeftOut in Spec/XmlCarried list everything that is excepted (Merged: reencodeXML_moves of C94 is a case); for everything else the theorem is unconditional. Form means what `XValid` says (C71); that no element has two attributes of the same name is assumed (encoding/xml does not check it, XML demands it)."
  },
  {
   "property": "C73",
   "status": "partial",
   "theorems": [
    "Verif.Props.encodeXML_listed_iff",
    "Verif.Props.encodeVersionXML_listed_iff",
    "Verif.Props.encodeVersionXML_listed_copyable",
    "Verif.Props.encodeVersionXML_listed_partial",
    "Verif.Props.converted_xlisted",
    "Verif.Props.encodeVersionXML_late_strings",
    "Verif.Props.encodeVersionXML_conforms_iff"
   ],
   "note": "The claim is false for BOMs with strings of later versions at places that the conversion does not visit: `encodeVersionXML_late_strings`. `encodeVersionXML_listed_iff` says exactly for which BOMs it holds, for every version from 1.0. `encodeVersionXML_conforms_iff` joins it with C53. SPDX license identifiers are not among the enumerations."
  },
  {
   "property": "C74",
   "status": "partial",
   "theorems": [
    "Verif.Props.constants_enumerated_attrs",
    "Verif.Props.constants_enumerated_elems_partial",
    "Verif.Props.enumeratedAttrs_complete",
    "Verif.Props.enumeratedElems_complete",
    "Verif.Props.volume_mode_not_enumerated_xml"
   ],
   "note": "The claim is false for the mode of a volume: `volume_mode_not_enumerated_xml`. It is proved for all other enumerations. The encoding of attached texts has no type of its own."
  },
  {
   "property": "C75",
   "status": "proved",
   "theorems": [
    "Verif.Props.json_reader_iff",
    "Verif.Props.json_reader_error_iff",
    "Verif.Props.json_pieces_irrelevant",
    "Verif.Props.xml_reader",
    "Verif.Props.xml_pieces_irrelevant",
    "Verif.Props.xml_reader_sound",
    "Verif.Props.xml_reader_incomplete",
    "Verif.Props.xml_reader_rest",
    "Verif.Props.xml_reader_stalls",
    "Verif.Props.xml_pipe"
   ],
   "note": "Readers are finite lists of the results of Read, in bytes; a piece may end within a character."
  },
  {
   "property": "C76",
   "status": "proved",
   "theorems": [
    "Verif.Props.json_truncated_refused",
    "Verif.Props.json_written_truncated",
    "Verif.Props.xml_truncated_refused",
    "Verif.Props.xml_written_truncated",
    "Verif.Props.xml_interrupted"
   ],
   "note": "For bytes: a document may also be cut within a character."
  },
  {
   "property": "C77",
   "status": "proved",
   "theorems": [
    "Verif.Props.json_second_decode",
    "Verif.Props.json_two_refused",
    "Verif.Props.xml_byte_reader_documents",
    "Verif.Props.xml_one_piece_each",
    "Verif.Props.xml_rest_of_piece_lost",
    "Verif.Props.xml_written_decodes"
   ],
   "note": "A decoder whose Decode failed is not covered."
  },
  {
   "property": "C78",
   "status": "proved",
   "theorems": [
    "Verif.Props.utf8_written",
    "Verif.Props.json_bytes",
    "Verif.Props.json_invalid_byte",
    "Verif.Props.xml_bytes",
    "Verif.Props.xml_bytes_lawful"
   ],
   "note": "Strings of the BOM are valid UTF-8."
  },
  {
   "property": "C79",
   "status": "proved",
   "theorems": [
    "Verif.Props.other_formats",
    "Verif.Props.format_round_trip",
    "Verif.Props.format_version"
   ],
   "note": "For a writer that accepts everything and documents not nested deeper than encoding/json and encoding/xml read. The integers of the BOM fit into int; format_version is about BOMs of regular form (C43)."
  },
  {
   "property": "C80",
   "status": "partial",
   "theorems": [
    "Verif.Props.xml_as_json_refused",
    "Verif.Props.json_as_xml_refused_partial",
    "Verif.Props.json_as_xml_accepted"
   ],
   "note": "Proved for XML read as JSON, and for JSON with SetEscapeHTML(true), the default, read as XML. With SetEscapeHTML(false) it does not hold: json_as_xml_accepted has a BOM whose JSON is read by Decode of XML as a BOM without components, since xml.Decoder ignores the text before the first start tag."
  },
  {
   "property": "C81",
   "status": "proved",
   "theorems": [
    "Verif.Props.encode_identifiers",
    "Verif.Props.encodeVersion_identifiers",
    "Verif.Props.encodeVersion_unique",
    "Verif.Props.encodeXML_identifiers",
    "Verif.Props.encodeVersionXML_identifiers",
    "Verif.Props.encodeVersionXML_unique",
    "Verif.Props.encodeVersionXML_unique_legal",
    "Verif.Props.encodeXML_merges_identifiers"
   ],
   "note": "Both formats. The identifiers written by Encode are given exactly: those of the BOM, and for XML without those that XML has no place for (details of license expressions) and with characters that XML does not allow replaced. Identifiers that differ only in such characters are written the same by Encode already (encodeXML_merges_identifiers)."
  },
  {
   "property": "C82",
   "status": "partial",
   "theorems": [
    "Verif.Props.encode_dependencyRefs",
    "Verif.Props.encodeVersion_dependencyRefs",
    "Verif.Props.encodeVersion_closed_partial",
    "Verif.Props.encodeVersion_dangling",
    "Verif.Props.encodeXML_dependencyRefs",
    "Verif.Props.encodeVersionXML_dependencyRefs",
    "Verif.Props.encodeVersionXML_closed_partial",
    "Verif.Props.encodeVersionXML_dangling"
   ],
   "note": "Proved, for both formats, for dependencies between components and services at any depth, pedigrees and the component of the metadata included. It does not hold for dependencies on components and services that are tools: before 1.5 they become tools without identifiers (encodeVersion_dangling, encodeVersionXML_dangling)."
  },
  {
   "property": "C83",
   "status": "partial",
   "theorems": [
    "Verif.Props.encodeVersion_uniqueItems_partial",
    "Verif.Props.encodeVersion_repeats"
   ],
   "note": "Proved for arrays at any depth whose elements all contain an identifier, if Encode writes no identifier twice. It does not hold in general: components that differ in types that the version does not have both become applications, and dependencies that differ in what is provided become equal before 1.6 (encodeVersion_repeats)."
  },
  {
   "property": "C84",
   "status": "proved",
   "theorems": [
    "Verif.Props.encode_pointers",
    "Verif.Props.encodeVersion_pointers",
    "Verif.Props.encodeVersion_resolved",
    "Verif.Props.encodeXML_pointers",
    "Verif.Props.encodeXML_pointers_sub",
    "Verif.Props.encodeVersionXML_resolved",
    "Verif.Props.convert_no_pointers"
   ],
   "note": "Both formats, every version. The references that Encode writes are given exactly."
  },
  {
   "property": "C85",
   "status": "partial",
   "theorems": [
    "Verif.Props.convert_unchanged_iff",
    "Verif.Props.convert_settled",
    "Verif.Props.convert_range_iff",
    "Verif.Props.conforming_unchanged_iff",
    "Verif.Props.encodeVersion_settled",
    "Verif.Props.encodeVersion_conforming_partial",
    "Verif.Props.encodeVersion_conforming_changed",
    "Verif.Props.encodeVersionXML_settled",
    "Verif.Props.xconforming_unchanged_iff",
    "Verif.Props.encodeVersionXML_conforming_partial",
    "Verif.Props.encodeVersionXML_conforming_changed"
   ],
   "note": "Which BOMs the conversion leaves as they are is exact (convert_unchanged_iff, every version from 1.0 on). The claim about conforming documents fails for components of the type cryptographic-asset (replaced in 1.6 and 1.7), for details of data flows in 1.5, for ratings without a method and for empty lists of hashes; among conforming BOMs these are the only exceptions (conforming_unchanged_iff), with witnesses in encodeVersion_conforming_changed. For XML the same is proved (encodeVersionXML_conforming_partial, from version 1.0 on, for BOMs that can be read back from their document); the further exceptions are the scope excluded in 1.1 and evidence of identities in 1.5 (excluded because a list becomes a single value in the BOM; the document is the same)."
  },
  {
   "property": "C86",
   "status": "partial",
   "theorems": [
    "Verif.Props.string_schema",
    "Verif.Props.newBOMLink_string_schema",
    "Verif.Props.linkKinds_disjoint",
    "Verif.Props.isBOMLink_schema_iff",
    "Verif.Props.isBOMLink_schema_partial",
    "Verif.Props.isBOMLink_refuses_schema_link",
    "Verif.Props.parseBOMLink_schema",
    "Verif.Props.newBOMLink_serial_json",
    "Verif.Props.newBOMLink_serial_xml_partial",
    "Verif.Props.newBOMLink_refuses_braces"
   ],
   "note": "What is written and what is accepted matches the patterns (proved). The converse fails: IsBOMLink refuses links to elements whose reference has other characters than those of a URN, for instance a #, which the pattern of the schemas allows (isBOMLink_refuses_schema_link; isBOMLink_schema_iff says exactly which), and NewBOMLink refuses a UUID in braces, which the XML schemas allow (newBOMLink_refuses_braces). For JSON the serial numbers agree exactly."
  },
  {
   "property": "C87",
   "status": "partial",
   "theorems": [
    "Verif.Props.encode_exclusive_iff",
    "Verif.Props.encodeVersion_exclusive_iff",
    "Verif.Props.convert_exclusive",
    "Verif.Props.encodeVersion_exclusive",
    "Verif.Props.exclusive_of_latest",
    "Verif.Props.exclusive_of_1_6",
    "Verif.Props.encodeVersion_exclusive_partial",
    "Verif.Props.encodeVersion_mixes_licenses",
    "Verif.Props.encode_both_alternatives"
   ],
   "note": "Exactly which BOMs are written with one of the alternatives of a version, and that deep copy and conversion to a version keep that (encodeVersion_exclusive, no further condition). The last sentence fails for 1.5 and 1.6: a list of licenses and expressions, which 1.7 allows, is written for them as it is (encodeVersion_mixes_licenses). Not expressed: that a contact is not an entity where both are objects of the same place, and the condition of 1.7 that a version range needs isExternal."
  },
  {
   "property": "C88",
   "status": "partial",
   "theorems": [
    "Verif.Props.reencode_declared_partial",
    "Verif.Props.decode_fits",
    "Verif.Props.reencode_undeclared"
   ],
   "note": "Proved, at any depth and also for repeated members, for documents that have what the schema requires and no empty reference to an IKEv2 algorithm. Both conditions are part of the schemas, and without them the claim fails: without its asserter a patent assertion, without its providers the consumption of energy of a model is written with null, and the empty reference as an object, which 1.6 does not declare (reencode_undeclared)."
  },
  {
   "property": "C89",
   "status": "partial",
   "theorems": [
    "Verif.Props.reencode_required_partial",
    "Verif.Props.decode_complete",
    "Verif.Props.reencode_incomplete"
   ],
   "note": "Proved, at any depth and also for repeated members, for documents in which no declared string is empty, every signer of a signature has a public key and no certificate extension is of both kinds. Without these conditions the claim fails: an annotation with an empty text loses the text, which is required; a signer without public key gets an empty one, which lacks its required type; an extension of both kinds (which the schema excludes) loses the kind that is complete (reencode_incomplete)."
  },
  {
   "property": "C90",
   "status": "partial",
   "theorems": [
    "Verif.Props.reencode_listed_partial",
    "Verif.Props.decode_listed",
    "Verif.Props.reencode_unlisted"
   ],
   "note": "Proved, at any depth and also for repeated members, for documents in which every affected version has its status (the schema gives it a default) and no patent family has the empty string as its identifier. Without these conditions the claim fails: the status is written as the empty string, and the family is read as a patent, which is written with an empty legal status (reencode_unlisted)."
  },
  {
   "property": "C91",
   "status": "proved",
   "theorems": [
    "Verif.Props.reencode_exclusive",
    "Verif.Props.decode_exclusive",
    "Verif.Props.reencode_schema",
    "Verif.Props.reencode_merges_alternatives"
   ],
   "note": "At any depth and for every version. That no member is repeated is needed: a repeated array is read into the elements of the first, which then have both alternatives (reencode_merges_alternatives). reencode_schema puts C88 to C91 together. The alternatives are those of C87; not expressed is the condition of 1.7 that a version range needs isExternal."
  },
  {
   "property": "C92",
   "status": "partial",
   "theorems": [
    "Verif.Props.reencodeVersion_required_partial",
    "Verif.Props.reencodeVersion_exclusive_partial",
    "Verif.Props.reencodeVersion_exclusive",
    "Verif.Props.reencodeVersion_listed_partial",
    "Verif.Props.encodeVersion_lacks_required",
    "Verif.Props.encodeVersion_mixes_licenses",
    "Verif.Props.encodeVersion_late_strings"
   ],
   "note": "What is required: from a document of 1.7, for every version, where the BOM read equals its deep copy (encodeVersion_lacks_required shows what the copy loses otherwise). Alternatives: from a document of 1.7 for every version but 1.5 and 1.6, whose lists of licenses are stricter (encodeVersion_mixes_licenses); from a document of 1.6 for every version up to 1.6; from a document of the version written for always. Enumerated strings: from a document of the version written for only, where the BOM read equals its deep copy; conversion does not drop all strings that older versions do not know (encodeVersion_late_strings)."
  },
  {
   "property": "C93",
   "status": "proved",
   "theorems": [
    "Verif.Props.reencode_says",
    "Verif.Props.reencode_says_over",
    "Verif.Props.reencode_facets"
   ],
   "note": "No condition on the document but that it is read and the BOM can be written. Names up to case, as encoding/json matches them; positions in arrays do not count. Not said of numbers: a float may be written with other digits."
  },
  {
   "property": "C94",
   "status": "proved",
   "theorems": [
    "Verif.Props.reencodeXML_says",
    "Verif.Props.reencodeXML_says_clean",
    "Verif.Props.reencodeXML_says_over",
    "Verif.Props.reencodeXML_moves"
   ],
   "note": "No condition on the document but that it is read and the BOM can be written. reencodeXML_says_clean: in a document with characters that XML allows only, nothing is replaced. Not said: in which element or attribute, which can change (reencodeXML_moves; C72 says that of documents of the form of a schema, in the other direction)."
  }
 ]
}