"""Writes MANIFEST.json."""
import json
C = []
def c(prop, status, theorems, note=""):
    C.append({"property": prop, "status": status, "theorems": ["Verif.Props." + t for t in theorems], "note": note})
c("C01", "proved", ["newBOMLink_ok_iff", "newBOMLink_nil_pointer_panics"], "A typed nil pointer makes the call panic; shown separately.")
c("C02", "proved", ["parseBOMLink_string", "parse_of_newBOMLink"])
c("C03", "proved", ["isBOMLink_string"])
c("C04", "proved", ["parseBOMLink_wellFormed"])
c("C05", "proved", ["parseBOMLink_canonical"])
c("C06", "proved", ["string_injective"])
c("C07", "proved", ["isBOMLink_iff", "parseBOMLink_ok_iff", "isBOMLink_but_not_parsed"])
c("C08", "proved", ["string_hash_iff", "string_prefix"])
c("C09", "proved", ["specVersion_official", "specVersion_roundtrip", "specVersionOfString_iff", "officialNames_nodup"])
c("C10", "proved", ["specVersion_string_total", "mediaType_string_total", "specVersion_str_injective", "mediaType_str_injective"])
c("C11", "proved", ["withVersion_none_iff", "withVersion_some_iff", "withVersion_injective"])
c("C12", "proved", ["convert_stamps"])
c("C13", "partial", ["convert_gates_bom_partial", "convert_gates_metadata", "convert_gates_bom_false", "convert_keeps_signature"],
  "False for the code: signature (1.4) and properties (1.3/1.5) of the BOM are never removed. Proved for all other members and for metadata.")
c("C14", "partial", ["convert_gates_components_partial", "convert_gates_components_false", "convert_keeps_component_signature"],
  "False for the code: signature and the bom-ref/address of the supplier are never removed. Proved for all other members at any depth.")
c("C15", "partial", ["convert_gates_services_partial", "convert_keeps_service_tags"],
  "False for the code: signature and tags of services are never removed. Proved for all other members at any depth.")
c("C16", "partial", ["convert_gates_document_partial", "convert_gates_document_false", "convert_untouched", "convert_gates_licenses_partial"],
  "False for the code: formulation, declarations, tool components, annotator individuals and components, service licenses are never visited. The partial theorem collects what holds everywhere else.")
c("C17", "proved", ["convert_idempotent"])
c("C18", "partial", ["convert_stepwise_partial", "convert_stepwise_false"],
  "False exactly for a final version 1.3/1.4 and an intermediate 1.5/1.6 (evidence licenses); proved for every other pair.")
c("C19", "partial", ["convert_latest_partial", "convert_latest_false", "convert_latest_false_rating"],
  "False for cryptographic-asset components and ratings without method; proved for documents with known enumeration values.")
c("C20", "proved", ["convert_sameTree", "convert_keeps_places", "convert_keeps_identity", "recurseComponent_go", "recurseService_go"])
c("C21", "proved", ["convert_keeps"], "One theorem: per field, kept, or erased because newer than v, or a documented default.")
c("C22", "proved", ["convert_hashes_exact", "convert_tool_hashes_exact", "convert_hashes_presence"])
c("C23", "proved", ["convert_tools_legacy", "convert_tools_kept", "convert_tools_not_both", "convert_tools_places"])
c("C24", "proved", ["convert_licenses_exact", "convert_licenses_kept", "convert_licenses_places"])
c("C25", "proved", ["convert_evidence_identity"])
c("C26", "proved", ["support_monotone"])
c("C27", "partial", ["constants_supported_partial", "cryptographic_asset_unsupported"],
  "False for cryptographic-asset only.")
c("C28", "proved", ["encodeVersion_leaves_caller", "encodeVersion_starts_from_copy", "copy_shares_nothing", "shallow_copy_interferes", "reads_unique"],
  "For whatever conversion and encoding do with the copy, at every step of the execution.")
c("C29", "partial", ["copy_eq_iff", "copy_copyable", "copy_same_encoding_partial", "copy_same_encoding_fails", "copy_same_encoding_only_if"],
  "Exact: the copy equals the BOM iff it has no pointer to a zero value and no empty list. False otherwise: false/0 behind a pointer and empty lists are missing in the encoding of the copy (witness).")
c("C30", "proved", ["json_unsupported_iff", "encodeVersion_unsupported_iff", "json_refused_iff", "json_version_refused_iff", "json_all_or_nothing"], "Writers are modelled as a sequence of Write calls, each accepted or not.")
c("C31", "proved", ["encodeVersion_reports", "encodeVersion_eq_encode_convert", "encodeVersion_latest", "encodeVersion_copy", "json_text_encodeVersion", "encodeVersionXML_reports", "encodeVersionXML_eq_encode_convert", "encodeVersionXML_latest", "encodeVersionXML_copy"])
c("C32", "proved", ["json_round_trip", "json_decodes_canonical", "json_text_round_trip"], "Exact: the round trip succeeds if and only if the BOM is plain (`BOM.Plain`, a predicate generated from the Go types). On syntax trees and on texts; documents up to the nesting limit of encoding/json.")
c("C33", "partial", ["json_stable_partial", "json_text_stable_partial", "json_stable_fails_on_duplicates"], "False for documents that repeat a member name (witness); proved for all others.")
c("C34", "partial", ["json_encodes_iff", "xml_encodes_iff", "json_asserter_dropped"], "Exact characterisation of what can be written in either format, at any depth. Asserters with several alternatives are written without error in JSON (witness).")
c("C35", "partial", ["json_decode_plain_partial", "tools_decode_one", "evidenceIdentity_decode_one", "certificateState_decode_one", "certificateExtension_decode_one", "patentChoice_decode_one", "asserter_decode_one", "dataset_decode_one", "environmentVariable_decode_one", "ikev2Auth_decode_one", "ikev2Enc_decode_one", "ikev2Integ_decode_one", "ikev2Ke_decode_one", "ikev2Prf_decode_one", "json_empty_tools_not_rewritable", "json_decode_two_alternatives"],
  "At most one alternative: proved for each type and any JSON value. False: an empty tools object decodes but cannot be encoded again; a repeated member name decodes into the old element, which may set both alternatives.")
c("C36", "proved", ["json_content_only", "json_unknown_ignored", "json_case_ignored", "json_exchange_ignored", "json_order_irrelevant"])
c("C37", "proved", ["json_options_same", "json_options_decode", "json_setters"])
c("C38", "proved", ["json_well_formed"], "Well-formed in the sense of a transcription of the grammar of RFC 8259 (Spec/JsonText); texts are sequences of characters, UTF-8 is not modelled.")
c("C39", "proved", ["xml_version_from_namespace", "xml_order_irrelevant"])
c("C40", "proved", ["xml_round_trip", "xml_round_trip_only", "xml_round_trip_iff"], "Exact: the round trip succeeds if and only if the BOM is `BOM.XPlain`, a predicate generated from the Go types; the converse for BOMs whose integers are Go integers. On trees of elements; for texts see C54.")
c("C41", "partial", ["xml_dependency", "xml_license", "xml_copyright", "xml_evidence", "xml_dataClassification", "xml_toolsChoice", "xml_certificateState", "xml_certificateExtension", "xml_asserterChoice", "xml_ikev2Auth", "xml_ikev2Enc", "xml_ikev2Integ", "xml_ikev2Ke", "xml_ikev2Prf", "xml_mlDatasetChoice", "xml_definitions", "xml_licenses", "xml_environmentVariables", "xml_evidence_classification_lost", "xml_evidence_classification_ignored"],
  "Proved for every type in canonical form. False for the data classification of evidence in declarations: it is written under another name and lost, and that of a document is passed over (witnesses).")
c("C42", "partial", ["newBOM_convert", "newBOM_json_partial", "newBOM_json_namespace_lost", "newBOM_xml_partial"], "Conversion, JSON and XML. Reading back the JSON loses the XML namespace that NewBOM sets; reading back the XML loses the JSON schema and the format.")
c("C43", "proved", ["encodeVersion_decodes", "encodeVersion_decodes_converted", "json_text_encodeVersion_decodes"], "For BOMs whose integers are Go integers and whose choices have the member by which they are recognised (`BOM.Regular`). Fixed by conversion up to the XML namespace, which JSON does not have.")
c("C44", "partial", ["encodeVersion_total_partial", "encodeVersion_fails_on_empty_tools", "encodeVersionXML_total", "encodeVersionXML_empty_tools"], "True for XML. For JSON false for a choice of tools without entries (witness: can be encoded, but by EncodeVersion in no version); proved for all other BOMs.")
c("C45", "partial", ["supportsHashAlgorithm_schema", "supportsScoringMethod_schema", "supportsCompositionAggregate_schema", "supportsCryptoPrimitive_schema", "supportsCryptoProtocolType_schema", "supportsComponentType_schema_partial", "supportsScope_schema_partial", "supportsExternalReferenceType_schema_partial", "cryptographic_asset_unsupported", "excluded_scope_at_1_1", "premature_reference_types", "constants_in_schema"],
  "Exact for five enumerations; the exceptions of the other three (cryptographic-asset, scope excluded at 1.1, seven reference types) are proved to be disagreements.")
c("C46", "proved", ["convert_keeps"])
c("C47", "proved", ["json_malformed_refused", "json_layout_irrelevant", "json_decoded_well_formed"])
c("C48", "proved", ["json_html_safe", "json_one_line", "json_no_separators"])
c("C49", "partial", ["xml_reread_partial", "xml_reread_unstable", "xml_read_unwritable"], "False for documents with empty elements (witness) and for licenses with identifier and name, which are read but cannot be written (witness); proved for what XML can represent.")
c("C50", "proved", ["xml_encodes_iff", "xml_output_decodes"], "What is written is decoded if the integers are Go integers (in the model they can be larger).")
c("C51", "proved", ["encodeVersionXML_total", "encodeVersionXML_reports", "encodeVersionXML_decodes", "encodeVersionXML_decodes_converted"])
c("C52", "partial", ["encodeVersion_declared_iff", "encodeVersion_declared_partial", "encodeVersion_undeclared", "encode_declared_iff", "richBOM_fits"],
  "Exact: true if and only if the BOM has none of the contents listed in `BOM.FitsConverted`. False otherwise: ten BOMs with contents that the conversion leaves behind (signatures, properties of the BOM, tags of services, licenses as evidence, tools that are components, addresses of suppliers, the formulation, asserters of patents, hashes that become null).")
c("C53", "partial", ["encodeVersionXML_valid_iff_converted", "encodeVersionXML_valid_iff_copyable", "encodeVersionXML_valid_partial", "encodeVersionXML_valid_iff", "encodeVersionXML_invalid", "encodeXML_valid_iff", "encodeXML_misplaced", "richXBOM_fits"],
  "Exact: true if and only if the copy of the BOM has none of the contents listed in `BOM.XFitsConverted`. False otherwise: twelve BOMs with contents that the conversion leaves behind, and seven components that are not written as the schema declares even in version 1.7. Simple types (enumerations, patterns, dates) and uniqueness of references are not looked at.")
c("C54", "proved", ["xml_text_decodes", "xml_text_round_trip", "xml_text_output_decodes", "xml_text_encodeVersion_decodes"], "For all documents up to the nesting limit of encoding/xml and BOMs whose integers are Go integers.")
c("C55", "proved", ["xml_well_formed", "strict_unique"], "Well-formed in the sense of a part of the grammar of XML 1.0 (Spec/XmlStrict) that leaves no room for differences between processors; texts are sequences of characters, UTF-8 is not modelled.")
c("C56", "proved", ["xml_setters", "xml_options_same", "xml_options_decode"])
c("C57", "proved", ["xml_malformed_refused", "xml_decoded_well_formed", "xml_layout_irrelevant"], "For any tables of the characters outside ASCII that names may have, and any rule for the contents of XML declarations.")
c("C58", "proved", ["xml_success_iff", "xml_success_text", "xml_header_first", "xml_writes_prefix"], "Writers are modelled as a sequence of Write calls, each accepted or not.")
c("C59", "proved", ["xml_root_attrs"])
c("C60", "partial", ["json_to_xml_unversioned", "xml_to_json_unidentified", "to_xml_contents_partial", "to_json_contents_partial", "json_xml_json_partial"],
  "False: Encode as XML of any BOM that was read from JSON is in no namespace and reads back without a version; JSON of any BOM that was read from XML has an empty bomFormat (by EncodeVersion too), which the schema does not allow. The contents are kept by EncodeVersion in the latest version, for BOMs that both formats and the copy can represent.")
c("C61", "proved", ["conversion_as_written", "conversion_as_written_stable", "convert_in_place", "bom_tree_injective"],
  "convert.go statement by statement (Model/GoConvert) against the functions on values (Model/Convert), for any number of steps that is large enough for the depth of the BOM.")
c("C62", "proved", open("/verif/tools/json_members.txt").read().split() +
  ["json_form_tools_list", "json_form_tools_object", "json_form_tools_read", "json_form_identities", "json_form_certificateState",
   "json_form_certificateExtension", "json_form_patent", "json_form_asserter", "json_form_dataset", "json_form_environmentVariable",
   "json_form_ikev2"],
  "One theorem per type that encoding/json writes as a struct (json_members_*) and per type with a choice between forms (json_form_*).")
c("C63", "proved", open("/verif/tools/xml_elements.txt").read().split() +
  ["xml_form_reference", "xml_form_copyright", "xml_form_dependency", "xml_form_licenses_append", "xml_form_licenses_license",
   "xml_form_licenses_expression", "xml_form_licenses_detailed", "xml_form_expressionDetail", "xml_form_environmentVariables",
   "xml_form_certificateState", "xml_form_certificateExtension", "xml_form_asserter", "xml_form_dataset",
   "xml_form_ikev2_reference", "xml_form_ikev2_fields", "xml_form_evidence_written", "xml_form_evidence_read",
   "xml_form_tools_written", "xml_form_tools_read", "xml_form_dataClassification_written", "xml_form_dataClassification_read",
   "xml_form_definitions_written", "xml_form_definitions_read"],
  "One theorem per type that encoding/xml writes as a struct (xml_elements_*); the types with MarshalXML and UnmarshalXML methods in xml_form_*.")
c("C64", "partial", ["encodeVersion_required_iff", "encodeVersion_required_copied", "encodeVersion_required_partial", "convert_required", "encode_required_iff", "encodeVersion_lacks_required", "encode_lacks_component_version", "encode_empty_key"],
  "Proved of every BOM whose deep copy has what is required, and of the conversion without exception. False otherwise: the copy drops the confidence 0 of a method of identification and empty lists of subjects (witnesses). Negative requirements and if/then are not looked at. Encode does not supply the version of components; a signer without a key is written with an empty one.")
c("C65", "partial", ["encodeVersion_listed_iff", "encodeVersion_listed_copyable", "encodeVersion_listed_partial", "encode_listed_iff", "converted_listed", "newStringsBOM_listed", "encodeVersion_late_strings"],
  "An exact condition on the BOM is proved for every version; it says nothing of types and scopes of components, of the algorithms of their hashes and of the methods of ratings, which are always converted, and holds of every BOM with strings of the version only. False in general: fields of identities, hashes of external references, seven types of references, and all that conversion does not visit (formulation, tools that are components, ...) keep strings of later versions (witnesses).")
c("C66", "partial", ["constants_enumerated_partial", "volume_mode_not_enumerated", "schema_identifier_partial", "schema_identifier_1_2"],
  "Proved of all enumerated fields but the mode of a volume, where the exported VolumeModeFilesystem is in no schema, and of all identifiers but that of version 1.2, where the strict schema enumerates another one.")
c("C67", "partial", ["decode_refuses_iff", "decodeText_refuses_iff", "decode_accepts_partial", "declared_refused", "jsonClassifiedDocument_declared", "assertedDocument_declared", "lateDocument_declared", "futureDocument_declared"],
  "The refused documents are characterised exactly, for all documents that have only what the schemas declare. False in general: the classification of evidence data, an asserter given by reference, integers beyond 64 bits, numbers beyond the range of floats and unknown versions are refused although the schemas allow them (witnesses).")
c("C68", "partial", ["decode_encode_carried_partial", "single_signature_lost", "signature_lost", "modelCard_properties_lost", "asserter_lost", "patentAssignee_lost"],
  "Proved for all members but those listed in `Hidden`, which are lost: the signature of a single signer, the properties of a model card, asserters and assignees of patents, and the members of the alternative that a choice does not take.")
c("C69", "partial", ["decodeJSON_fails_alike_partial", "decodeXML_fails_alike_partial", "decodeJSON_absent", "decodeXML_absent", "decodeXML_appends", "decodeJSON_merges", "decodeXML_doubles"],
  "Whether Decode fails depends on the document alone (proved). What it yields does not: fields that the document does not mention keep their values, in JSON the elements of lists are read into the old elements (a component without package URL gets that of the old one: `decodeJSON_merges`), in XML lists are appended to the old ones (`decodeXML_appends`, for all lists of the BOM; `decodeXML_doubles`).")
c("C70", "proved", ["decodeJSON_again"],
  "For JSON only; in XML decoding again doubles the lists (C69).")
c("C71", "proved", ["decodeXML_refuses_iff", "decodeXMLText_refuses_iff", "decodeXML_accepts", "xs_boolean_read", "xs_integer_read", "xs_integer_refused", "decodeXML_refuses_huge"],
  "Form means what `XValid` says: simple types and keys are not looked at, and wildcards are left out, so documents with extension elements of other namespaces are not covered (some hand-written decoders refuse them). For texts it is assumed that they are not nested deeper than encoding/xml allows.")
c("C72", "partial", ["decodeXML_encodeXML_carried", "decodeXMLText_encodeXML_carried", "decodeXML_encodeXML_said", "decodeXML_encodeXML_loses"],
  "Partial since the code loses things that the schemas declare: `decodeXML_encodeXML_loses` is a valid 1.6 document whose occurrence line and symbol, SWID url, claim target and nested dependency are gone after reading and writing. The tables XPlace.unread, XPlace.unreadAttrs, XPlace.single, XPlace.Merged and ZeroLeftOut in Spec/XmlCarried list everything that is excepted (Merged: reencodeXML_moves of C94 is a case); for everything else the theorem is unconditional. Form means what `XValid` says (C71); that no element has two attributes of the same name is assumed (encoding/xml does not check it, XML demands it).")
c("C73", "partial", ["encodeXML_listed_iff", "encodeVersionXML_listed_iff", "encodeVersionXML_listed_copyable", "encodeVersionXML_listed_partial", "converted_xlisted", "encodeVersionXML_late_strings", "encodeVersionXML_conforms_iff"],
  "The claim is false for BOMs with strings of later versions at places that the conversion does not visit: `encodeVersionXML_late_strings`. `encodeVersionXML_listed_iff` says exactly for which BOMs it holds, for every version from 1.0. `encodeVersionXML_conforms_iff` joins it with C53. SPDX license identifiers are not among the enumerations.")
c("C74", "partial", ["constants_enumerated_attrs", "constants_enumerated_elems_partial", "enumeratedAttrs_complete", "enumeratedElems_complete", "volume_mode_not_enumerated_xml"],
  "The claim is false for the mode of a volume: `volume_mode_not_enumerated_xml`. It is proved for all other enumerations. The encoding of attached texts has no type of its own.")
c("C75", "proved", ["json_reader_iff", "json_reader_error_iff", "json_pieces_irrelevant", "xml_reader", "xml_pieces_irrelevant", "xml_reader_sound", "xml_reader_incomplete", "xml_reader_rest", "xml_reader_stalls", "xml_pipe"],
  "Readers are finite lists of the results of Read, in bytes; a piece may end within a character.")
c("C76", "proved", ["json_truncated_refused", "json_written_truncated", "xml_truncated_refused", "xml_written_truncated", "xml_interrupted"],
  "For bytes: a document may also be cut within a character.")
c("C77", "proved", ["json_second_decode", "json_two_refused", "xml_byte_reader_documents", "xml_one_piece_each", "xml_rest_of_piece_lost", "xml_written_decodes"],
  "A decoder whose Decode failed is not covered.")
c("C78", "proved", ["utf8_written", "json_bytes", "json_invalid_byte", "xml_bytes", "xml_bytes_lawful"],
  "Strings of the BOM are valid UTF-8.")
c("C79", "proved", ["other_formats", "format_round_trip", "format_version"],
  "For a writer that accepts everything and documents not nested deeper than encoding/json and encoding/xml read. The integers of the BOM fit into int; format_version is about BOMs of regular form (C43).")
c("C80", "partial", ["xml_as_json_refused", "json_as_xml_refused_partial", "json_as_xml_accepted"],
  "Proved for XML read as JSON, and for JSON with SetEscapeHTML(true), the default, read as XML. With SetEscapeHTML(false) it does not hold: json_as_xml_accepted has a BOM whose JSON is read by Decode of XML as a BOM without components, since xml.Decoder ignores the text before the first start tag.")
c("C81", "proved", ["encode_identifiers", "encodeVersion_identifiers", "encodeVersion_unique", "encodeXML_identifiers", "encodeVersionXML_identifiers", "encodeVersionXML_unique", "encodeVersionXML_unique_legal", "encodeXML_merges_identifiers"],
  "Both formats. The identifiers written by Encode are given exactly: those of the BOM, and for XML without those that XML has no place for (details of license expressions) and with characters that XML does not allow replaced. Identifiers that differ only in such characters are written the same by Encode already (encodeXML_merges_identifiers).")
c("C82", "partial", ["encode_dependencyRefs", "encodeVersion_dependencyRefs", "encodeVersion_closed_partial", "encodeVersion_dangling", "encodeXML_dependencyRefs", "encodeVersionXML_dependencyRefs", "encodeVersionXML_closed_partial", "encodeVersionXML_dangling"],
  "Proved, for both formats, for dependencies between components and services at any depth, pedigrees and the component of the metadata included. It does not hold for dependencies on components and services that are tools: before 1.5 they become tools without identifiers (encodeVersion_dangling, encodeVersionXML_dangling).")
c("C83", "partial", ["encodeVersion_uniqueItems_partial", "encodeVersion_repeats"],
  "Proved for arrays at any depth whose elements all contain an identifier, if Encode writes no identifier twice. It does not hold in general: components that differ in types that the version does not have both become applications, and dependencies that differ in what is provided become equal before 1.6 (encodeVersion_repeats).")
c("C84", "proved", ["encode_pointers", "encodeVersion_pointers", "encodeVersion_resolved", "encodeXML_pointers", "encodeXML_pointers_sub", "encodeVersionXML_resolved", "convert_no_pointers"],
  "Both formats, every version. The references that Encode writes are given exactly.")
c("C85", "partial", ["convert_unchanged_iff", "convert_settled", "convert_range_iff", "conforming_unchanged_iff", "encodeVersion_settled", "encodeVersion_conforming_partial", "encodeVersion_conforming_changed", "encodeVersionXML_settled", "xconforming_unchanged_iff", "encodeVersionXML_conforming_partial", "encodeVersionXML_conforming_changed"],
  "Which BOMs the conversion leaves as they are is exact (convert_unchanged_iff, every version from 1.0 on). The claim about conforming documents fails for components of the type cryptographic-asset (replaced in 1.6 and 1.7), for details of data flows in 1.5, for ratings without a method and for empty lists of hashes; among conforming BOMs these are the only exceptions (conforming_unchanged_iff), with witnesses in encodeVersion_conforming_changed. For XML the same is proved (encodeVersionXML_conforming_partial, from version 1.0 on, for BOMs that can be read back from their document); the further exceptions are the scope excluded in 1.1 and evidence of identities in 1.5 (excluded because a list becomes a single value in the BOM; the document is the same).")
c("C86", "partial", ["string_schema", "newBOMLink_string_schema", "linkKinds_disjoint", "isBOMLink_schema_iff", "isBOMLink_schema_partial", "isBOMLink_refuses_schema_link", "parseBOMLink_schema", "newBOMLink_serial_json", "newBOMLink_serial_xml_partial", "newBOMLink_refuses_braces"],
  "What is written and what is accepted matches the patterns (proved). The converse fails: IsBOMLink refuses links to elements whose reference has other characters than those of a URN, for instance a #, which the pattern of the schemas allows (isBOMLink_refuses_schema_link; isBOMLink_schema_iff says exactly which), and NewBOMLink refuses a UUID in braces, which the XML schemas allow (newBOMLink_refuses_braces). For JSON the serial numbers agree exactly.")
c("C87", "partial", ["encode_exclusive_iff", "encodeVersion_exclusive_iff", "convert_exclusive", "encodeVersion_exclusive", "exclusive_of_latest", "exclusive_of_1_6", "encodeVersion_exclusive_partial", "encodeVersion_mixes_licenses", "encode_both_alternatives"],
  "Exactly which BOMs are written with one of the alternatives of a version, and that deep copy and conversion to a version keep that (encodeVersion_exclusive, no further condition). The last sentence fails for 1.5 and 1.6: a list of licenses and expressions, which 1.7 allows, is written for them as it is (encodeVersion_mixes_licenses). Not expressed: that a contact is not an entity where both are objects of the same place, and the condition of 1.7 that a version range needs isExternal.")
c("C88", "partial", ["reencode_declared_partial", "decode_fits", "reencode_undeclared"],
  "Proved, at any depth and also for repeated members, for documents that have what the schema requires and no empty reference to an IKEv2 algorithm. Both conditions are part of the schemas, and without them the claim fails: without its asserter a patent assertion, without its providers the consumption of energy of a model is written with null, and the empty reference as an object, which 1.6 does not declare (reencode_undeclared).")
c("C89", "partial", ["reencode_required_partial", "decode_complete", "reencode_incomplete"],
  "Proved, at any depth and also for repeated members, for documents in which no declared string is empty, every signer of a signature has a public key and no certificate extension is of both kinds. Without these conditions the claim fails: an annotation with an empty text loses the text, which is required; a signer without public key gets an empty one, which lacks its required type; an extension of both kinds (which the schema excludes) loses the kind that is complete (reencode_incomplete).")
c("C90", "partial", ["reencode_listed_partial", "decode_listed", "reencode_unlisted"],
  "Proved, at any depth and also for repeated members, for documents in which every affected version has its status (the schema gives it a default) and no patent family has the empty string as its identifier. Without these conditions the claim fails: the status is written as the empty string, and the family is read as a patent, which is written with an empty legal status (reencode_unlisted).")
c("C91", "proved", ["reencode_exclusive", "decode_exclusive", "reencode_schema", "reencode_merges_alternatives"],
  "At any depth and for every version. That no member is repeated is needed: a repeated array is read into the elements of the first, which then have both alternatives (reencode_merges_alternatives). reencode_schema puts C88 to C91 together. The alternatives are those of C87; not expressed is the condition of 1.7 that a version range needs isExternal.")
c("C92", "partial", ["reencodeVersion_required_partial", "reencodeVersion_exclusive_partial", "reencodeVersion_exclusive", "reencodeVersion_listed_partial", "encodeVersion_lacks_required", "encodeVersion_mixes_licenses", "encodeVersion_late_strings"],
  "What is required: from a document of 1.7, for every version, where the BOM read equals its deep copy (encodeVersion_lacks_required shows what the copy loses otherwise). Alternatives: from a document of 1.7 for every version but 1.5 and 1.6, whose lists of licenses are stricter (encodeVersion_mixes_licenses); from a document of 1.6 for every version up to 1.6; from a document of the version written for always. Enumerated strings: from a document of the version written for only, where the BOM read equals its deep copy; conversion does not drop all strings that older versions do not know (encodeVersion_late_strings).")
c("C93", "proved", ["reencode_says", "reencode_says_over", "reencode_facets"],
  "No condition on the document but that it is read and the BOM can be written. Names up to case, as encoding/json matches them; positions in arrays do not count. Not said of numbers: a float may be written with other digits.")
c("C94", "proved", ["reencodeXML_says", "reencodeXML_says_clean", "reencodeXML_says_over", "reencodeXML_moves"],
  "No condition on the document but that it is read and the BOM can be written. reencodeXML_says_clean: in a document with characters that XML allows only, nothing is replaced. Not said: in which element or attribute, which can change (reencodeXML_moves; C72 says that of documents of the form of a schema, in the other direction).")
json.dump({"claims": C}, open("/verif/MANIFEST.json", "w"), indent=1, ensure_ascii=False)
