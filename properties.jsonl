{"id": "C01", "title": "NewBOMLink accepts exactly the documented inputs", "statement": "NewBOMLink(serial, version, elem) succeeds if and only if serial is the literal prefix urn:uuid: followed by a lower-case RFC-4122 UUID (8-4-4-4-12 hex digits, nothing after it), version >= 1, and elem is either nil or a Component, Service or Vulnerability (by value or non-nil pointer) with a non-empty bom reference. On success the link reports exactly that serial, version and reference.", "quantifier": "every byte string as serial, every int as version, every element kind and every bom-ref", "why_tests_cant": "the input space of serials, versions and elements is infinite; tests sample a handful of malformed serials", "anchors": ["link.go:NewBOMLink", "cyclonedx.go:serialNumberRegex"]}
{"id": "C02", "title": "ParseBOMLink inverts String", "statement": "For every link built by NewBOMLink (with a version that fits Go's int), ParseBOMLink(link.String()) succeeds and returns a link equal to the original, whatever bytes the bom reference holds.", "quantifier": "every valid serial, version and every reference byte string (spaces, '#', '/', '%', '+', non-ASCII, invalid UTF-8)", "why_tests_cant": "escaping bugs hide in particular byte values and combinations; only a proof covers all 256^n references", "anchors": ["link.go:BOMLink.String", "link.go:ParseBOMLink"]}
{"id": "C03", "title": "String always produces something IsBOMLink accepts", "statement": "For every link built by NewBOMLink, IsBOMLink(link.String()) is true.", "quantifier": "every valid link", "why_tests_cant": "depends on the escaped alphabet being inside the accepted alphabet for all bytes", "anchors": ["link.go:BOMLink.String", "link.go:IsBOMLink"]}
{"id": "C04", "title": "Parsed links satisfy the constructor's guarantees", "statement": "Whenever ParseBOMLink(s) succeeds, the returned link has a serial number that NewBOMLink would accept and a version >= 1; re-creating it with NewBOMLink and an element with that reference (or no element when the reference is empty) gives an equal link.", "quantifier": "every byte string s", "why_tests_cant": "parsing accepts an infinite language; a test cannot show that no accepted string yields a malformed link", "anchors": ["link.go:ParseBOMLink", "link.go:NewBOMLink"]}
{"id": "C05", "title": "Printing a parsed link is a canonicalisation", "statement": "If ParseBOMLink(s) succeeds with l, then ParseBOMLink(l.String()) succeeds with the same l (so printing and re-parsing reaches a fixed point after one step).", "quantifier": "every byte string s accepted by ParseBOMLink", "why_tests_cant": "needs all alternative escapings of the same reference", "anchors": ["link.go:ParseBOMLink", "link.go:BOMLink.String"]}
{"id": "C06", "title": "Distinct links have distinct strings", "statement": "Two links built by NewBOMLink have equal String() results only if serial number, version and reference are all equal.", "quantifier": "every pair of valid links", "why_tests_cant": "collisions could hide anywhere in the product of two infinite spaces", "anchors": ["link.go:BOMLink.String"]}
{"id": "C07", "title": "IsBOMLink recognises exactly the urn:cdx grammar and ParseBOMLink fails on accepted strings only for two reasons", "statement": "IsBOMLink(s) holds iff s is 'urn:cdx:' uuid '/' version [ '#' ref ] with version a decimal numeral without leading zero and ref a non-empty string over the documented alphabet. ParseBOMLink(s) succeeds iff IsBOMLink(s), the version numeral is at most 2^63-1, and every '%' in ref starts a two-hex-digit escape.", "quantifier": "every byte string s", "why_tests_cant": "characterising a language needs all strings", "anchors": ["link.go:bomLinkRegex", "link.go:IsBOMLink", "link.go:ParseBOMLink"]}
{"id": "C08", "title": "Deep and plain links never confuse each other", "statement": "A link has an empty Reference() iff its string contains no '#'. The characters of the reference can never inject a second '#' or alter serial or version of the printed link.", "quantifier": "every valid link", "why_tests_cant": "injection must be excluded for all references", "anchors": ["link.go:BOMLink.String"]}
{"id": "C09", "title": "Specification version names round-trip and nothing else is accepted", "statement": "For each of the eight specification versions v, decoding v's JSON (and XML) rendering gives v back. Decoding any string other than the eight names '1.0'..'1.7' fails with ErrInvalidSpecVersion and the eight names are pairwise different.", "quantifier": "all strings as candidate version names; all eight versions", "why_tests_cant": "rejection ranges over infinitely many strings", "anchors": ["cyclonedx_json.go:SpecVersion.UnmarshalJSON", "cyclonedx_xml.go:SpecVersion.UnmarshalXML", "cyclonedx_string.go"]}
{"id": "C10", "title": "Out-of-range enum values print without panicking and never collide", "statement": "SpecVersion(i).String() and MediaType(i).String() are defined for every int i, never index out of bounds, and are injective in i.", "quantifier": "every int i", "why_tests_cant": "table look-ups with off-by-one bugs show only at specific integers out of 2^64", "anchors": ["cyclonedx_string.go:SpecVersion.String", "cyclonedx_string.go:MediaType.String"]}
{"id": "C11", "title": "MediaType.WithVersion refuses exactly JSON below 1.2", "statement": "WithVersion(v) fails iff the media type is JSON and v < 1.2; otherwise it yields '<media type>; version=<version name>', and for distinct (media type, version) pairs the results are distinct.", "quantifier": "every media type int and version int", "why_tests_cant": "pairs of arbitrary ints", "anchors": ["cyclonedx.go:MediaType.WithVersion"]}
{"id": "C12", "title": "Conversion stamps the requested version everywhere", "statement": "After converting to version v the BOM's SpecVersion is v, its XML namespace is the one registered for v and its JSON schema the one registered for v.", "quantifier": "every BOM and every int v", "why_tests_cant": "all BOMs, all versions", "anchors": ["convert.go:BOM.convert"]}
{"id": "C13", "title": "No field newer than the target version survives at document level", "statement": "After conversion to v every top-level BOM field and metadata field that was introduced after v is absent (serial number & external references <1.1; dependencies, metadata, services <1.2; compositions <1.3; vulnerabilities <1.4; annotations, formulation, lifecycles <1.5; declarations, definitions, manufacturer, dependency.provides <1.6; citations, patents, distribution constraints <1.7).", "quantifier": "every BOM and version", "why_tests_cant": "any single missed combination is a leak", "anchors": ["convert.go:BOM.convert"]}
{"id": "C14", "title": "No component field newer than the target survives at any depth", "statement": "After conversion to v every component reachable from metadata.component or components - through nested components and pedigree ancestors, descendants and variants, at any depth - has none of the fields introduced after v and carries a type, scope and hash algorithms that v supports.", "quantifier": "every BOM (arbitrarily deep component trees) and version", "why_tests_cant": "nesting depth is unbounded; tests use depth 1-2", "anchors": ["convert.go:componentConverter", "convert.go:recurseComponent"]}
{"id": "C15", "title": "No service field newer than the target survives at any depth", "statement": "After conversion to v every service reachable from services, at any depth, has none of the fields introduced after v (properties <1.3, release notes <1.4, trust zone <1.5, data-flow details and provider address <1.6, patent assertions and reference properties <1.7).", "quantifier": "every BOM and version", "why_tests_cant": "unbounded nesting", "anchors": ["convert.go:serviceConverter", "convert.go:recurseService"]}
{"id": "C16", "title": "Full version gating (whole document)", "statement": "After conversion to v, no part of the document that the BOM struct can hold carries a field or enum value introduced after v.", "quantifier": "every BOM and version", "why_tests_cant": "must hold for every place in the document tree", "anchors": ["convert.go"]}
{"id": "C17", "title": "Conversion is idempotent", "statement": "Converting a BOM to v twice is the same as converting it once.", "quantifier": "every BOM and every int v", "why_tests_cant": "all documents", "anchors": ["convert.go:BOM.convert"]}
{"id": "C18", "title": "Downgrading in steps equals downgrading directly", "statement": "For v1 <= v2, converting to v2 and then to v1 gives the same BOM as converting straight to v1.", "quantifier": "every BOM and every pair of versions", "why_tests_cant": "quadratically many version pairs times all documents", "anchors": ["convert.go"]}
{"id": "C19", "title": "Conversion to the BOM's own latest version keeps everything", "statement": "Converting to 1.7 changes nothing but the version stamps (loss is only promised when choosing a lower version).", "quantifier": "every BOM", "why_tests_cant": "a single unlisted enum value is a silent loss", "anchors": ["convert.go", "encode.go:BOMEncoder.EncodeVersion"]}
{"id": "C20", "title": "Conversion never drops, adds, reorders or renames components and services", "statement": "The tree of components (names, groups, in order; nested components at every depth, and pedigree relatives from 1.1 on) and the tree of services are the same before and after conversion, for every version that has them.", "quantifier": "every BOM and version", "why_tests_cant": "all trees", "anchors": ["convert.go:recurseComponent", "convert.go:recurseService"]}
{"id": "C21", "title": "Conversion only removes or defaults - it never invents data", "statement": "Every string, list element or flag present in the converted component or service was present in the original, except the documented defaults (version 0.0.0, type application, reference type other, rating method other, aggregate unknown, modified=false).", "quantifier": "every BOM and version", "why_tests_cant": "universal over all fields of all documents", "anchors": ["convert.go"]}
{"id": "C22", "title": "Hash filtering is exact", "statement": "After conversion the hash list holds exactly the hashes whose algorithm v supports, in the original order; support is monotone in v.", "quantifier": "every list of hashes and version", "why_tests_cant": "all lists", "anchors": ["convert.go:convertHashes", "convert.go:supportsHashAlgorithm"]}
{"id": "C23", "title": "Tools are converted to legacy tools below 1.5 without loss of entries or order", "statement": "Below 1.5 the tool list is the old tool list followed by one tool per component and one per service in order, components and services are gone, so encoding cannot fail with the 'not both' error because of the conversion; the vendor is the supplier (or provider) name when present, otherwise the author. From 1.5 on the choice of representation is unchanged.", "quantifier": "every ToolsChoice and version", "why_tests_cant": "all lists", "anchors": ["convert.go:convertTools", "convert.go:convertComponentToTool", "convert.go:convertServiceToTool"]}
{"id": "C24", "title": "License filtering below 1.1 is exact", "statement": "Below 1.1 exactly the licenses with an id or a name survive, in order, without text, url or expression; from 1.1 on no license entry is dropped.", "quantifier": "every license list and version", "why_tests_cant": "all lists", "anchors": ["convert.go:convertLicenses"]}
{"id": "C25", "title": "Evidence identity collapses to the first identity at 1.5 exactly", "statement": "At 1.5 an identity list becomes the single first identity (or nothing if empty) with concludedValue cleared; from 1.6 on identities are untouched; below 1.5 they are removed.", "quantifier": "every evidence value and version", "why_tests_cant": "all lists", "anchors": ["convert.go:convertEvidence"]}
{"id": "C26", "title": "Feature support is monotone in the version", "statement": "If version v supports a component type, hash algorithm, scope, scoring method, reference type, composition aggregate, crypto primitive or protocol type then so does every later version.", "quantifier": "every string and every pair of ints", "why_tests_cant": "all strings", "anchors": ["convert.go:supportsComponentType", "convert.go:supportsHashAlgorithm", "convert.go:supportsScope", "convert.go:supportsScoringMethod", "convert.go:supportsExternalReferenceType", "convert.go:supportsCompositionAggregate", "convert.go:supportsCryptoPrimitive", "convert.go:supportsCryptoProtocolType"]}
{"id": "C27", "title": "Every declared enum constant is supported by the latest version", "statement": "Every component type, hash algorithm, scope, scoring method, external reference type, aggregate, crypto primitive and protocol type constant exported by the package is supported by 1.7.", "quantifier": "all exported constants", "why_tests_cant": "each new constant must be added to a switch; tests don't enumerate them", "anchors": ["convert.go", "cyclonedx.go"]}
{"id": "C28", "title": "EncodeVersion does not modify the caller's BOM", "statement": "Whatever the BOM's pointer structure (including shared sub-structures), after EncodeVersion every value reachable from the caller's BOM is what it was before.", "quantifier": "every heap, every BOM (including aliasing between its parts) and version", "why_tests_cant": "aliasing bugs depend on pointer graphs; tests compare a few documents", "anchors": ["encode.go:EncodeVersion", "copy.go:BOM.copy", "convert.go:copyAndConvert"]}
{"id": "C29", "title": "The deep copy preserves the document", "statement": "Copying a BOM gives a BOM with the same encoding.", "quantifier": "every BOM", "why_tests_cant": "gob drops zero values behind pointers; only certain values show it", "anchors": ["copy.go:BOM.copy"]}
{"id": "C30", "title": "JSON is refused below 1.2 before anything is written", "statement": "Encoding to JSON with SpecVersion < 1.2 (or EncodeVersion with such a version) returns an error and writes no byte; conversely for SpecVersion >= 1.2 this error never occurs.", "quantifier": "every BOM and version", "why_tests_cant": "all documents", "anchors": ["encode.go:jsonBOMEncoder.Encode"]}
{"id": "C31", "title": "EncodeVersion is Encode after conversion", "statement": "EncodeVersion(bom, v) writes what Encode writes for the converted copy, and reports v in the output; encoding the same BOM twice gives the same bytes.", "quantifier": "every BOM and version", "why_tests_cant": "all documents", "anchors": ["encode.go:EncodeVersion"]}
{"id": "C32", "title": "JSON round trip of a whole BOM", "statement": "Decoding the JSON written for a BOM yields the same BOM, for every BOM in canonical form (choice types hold one alternative, no pointer to a nil slice, valid enum for specVersion, JSON-only fields).", "quantifier": "every BOM of any size and nesting", "why_tests_cant": "unbounded documents over ~130 struct types", "anchors": ["encode.go:jsonBOMEncoder.Encode", "decode.go:jsonBOMDecoder.Decode", "cyclonedx.go", "cyclonedx_json.go"]}
{"id": "C33", "title": "Decode-encode-decode is stable in JSON", "statement": "If a JSON document decodes to a BOM and that BOM encodes again, decoding the result gives the same BOM.", "quantifier": "every JSON document", "why_tests_cant": "all documents including duplicate keys, unknown members, odd casing", "anchors": ["encode.go", "decode.go", "cyclonedx_json.go"]}
{"id": "C34", "title": "Choice types refuse ambiguous values when encoding", "statement": "Encoding a tools choice, evidence identity, certificate state, certificate extension, license (id xor name) or asserter with more than one alternative set reports an error instead of silently dropping one.", "quantifier": "every value with both alternatives set, at any place in the document", "why_tests_cant": "all placements", "anchors": ["cyclonedx_json.go", "cyclonedx_xml.go"]}
{"id": "C35", "title": "Choice types decode to exactly one alternative", "statement": "Every successful decode of a tools choice, evidence identity, certificate state / extension, asserter, patent choice, dataset choice, IKEv2 transform or environment variable sets at most one alternative, so it can be encoded again.", "quantifier": "every JSON value", "why_tests_cant": "all inputs", "anchors": ["cyclonedx_json.go"]}
{"id": "C36", "title": "Unknown JSON members are ignored and member order is irrelevant", "statement": "Adding members with unknown names, or permuting members with different names, does not change the decoded BOM.", "quantifier": "every JSON object and permutation", "why_tests_cant": "all permutations", "anchors": ["decode.go:jsonBOMDecoder.Decode"]}
{"id": "C37", "title": "Encoder options do not change the document", "statement": "SetPretty and SetEscapeHTML change only the presentation: the output decodes to the same BOM for all four combinations.", "quantifier": "every BOM, all option combinations", "why_tests_cant": "strings with <, >, &, U+2028 at any place", "anchors": ["encode.go:SetPretty", "encode.go:SetEscapeHTML"]}
{"id": "C38", "title": "JSON output is parseable JSON", "statement": "Whenever Encode succeeds, the bytes written are a single well-formed JSON object followed by a newline, and parsing it gives back the encoded structure.", "quantifier": "every BOM", "why_tests_cant": "string escaping over all of Unicode", "anchors": ["encode.go:jsonBOMEncoder.Encode"]}
{"id": "C39", "title": "XML decoding determines the version from the namespace, independently of map order", "statement": "After a successful XML decode, SpecVersion is the version whose namespace is the document's xmlns, whatever order Go iterates the namespace table in; for unknown namespaces SpecVersion is left as it was.", "quantifier": "every document and every iteration order", "why_tests_cant": "map iteration order is randomised by the runtime", "anchors": ["decode.go:xmlBOMDecoder.Decode", "cyclonedx_xml.go:xmlNamespaces"]}
{"id": "C40", "title": "XML round trip", "statement": "Decoding the XML written for a BOM yields the same BOM, for every BOM that uses only XML-representable data in canonical form.", "quantifier": "every BOM of any size and nesting", "why_tests_cant": "unbounded documents", "anchors": ["encode.go:xmlBOMEncoder.Encode", "decode.go:xmlBOMDecoder.Decode", "cyclonedx_xml.go"]}
{"id": "C41", "title": "XML round trip of each custom-marshalled element", "statement": "Dependencies, environment variables, licenses, copyright, evidence, data classifications, tools, certificate states and extensions, asserters, IKEv2 transforms, dataset choices and definitions survive XML encode-decode.", "quantifier": "every value of each type", "why_tests_cant": "all values", "anchors": ["cyclonedx_xml.go"]}
{"id": "C42", "title": "NewBOM is a valid starting point", "statement": "NewBOM() encodes in both formats, decodes back to an equal BOM and is a fixed point of conversion to 1.7.", "quantifier": "the single initial value, for both formats and all option combinations", "why_tests_cant": "ties constructor, tables and codecs together", "anchors": ["cyclonedx.go:NewBOM"]}
{"id": "C43", "title": "EncodeVersion output decodes to the converted BOM", "statement": "For every BOM and version v, if EncodeVersion succeeds then decoding its JSON output yields the canonical form of the converted copy; in particular the decoded BOM reports version v and is fixed by conversion to v.", "quantifier": "every BOM and version", "why_tests_cant": "composition of copy, convert, encode and decode over all documents", "anchors": ["encode.go", "decode.go", "convert.go", "copy.go"]}
{"id": "C44", "title": "Conversion never makes an encodable BOM unencodable", "statement": "If a BOM can be encoded, then for every version that the format supports EncodeVersion succeeds.", "quantifier": "every BOM and version", "why_tests_cant": "interaction of conversion rules with the encoders' consistency checks", "anchors": ["convert.go", "cyclonedx_json.go", "cyclonedx_xml.go"]}
{"id": "C45", "title": "The conversion's idea of what a version supports agrees with the published schemas", "statement": "For every version and every value of the component type, scope, hash algorithm, scoring method, external reference type, aggregate, crypto primitive and protocol type enumerations: conversion to v keeps the value exactly when the XSD of version v (shipped in the repository) lists it.", "quantifier": "every enumeration value and version", "why_tests_cant": "the agreement is between hand-written switches and eight XSD files; unit tests sample a few values", "anchors": ["convert.go", "schema/bom-1.0.xsd", "schema/bom-1.7.xsd"]}
{"id": "C46", "title": "Conversion keeps everything the target version has", "statement": "For every version v, every member of the document, its metadata, components, services, licenses, references, vulnerabilities, compositions, annotations and tools that the schema of v has is after conversion what it was before (lists entry by entry, nested values recursively); the exceptions are data-flow details of services at 1.5, the scope 'excluded' at 1.1 and the component type cryptographic-asset.", "quantifier": "every BOM and version", "why_tests_cant": "over-erasing a single member is only noticed by a test that sets that member at that version", "anchors": ["convert.go"]}
{"id": "C47", "title": "Layout and escaping of a JSON text are irrelevant, malformed JSON is refused", "statement": "Decoding depends only on the value that the text denotes according to RFC 8259: white space between tokens and the choice of string escapes do not matter. A text outside the grammar, or nested more than 10000 levels deep, is refused.", "quantifier": "every text", "why_tests_cant": "the texts of a document are infinitely many; malformed texts likewise", "anchors": ["decode.go:jsonBOMDecoder.Decode"]}
{"id": "C48", "title": "JSON output is HTML-safe and one line by default", "statement": "Unless SetEscapeHTML(false) was called, the JSON output contains none of the characters <, > and &; unless SetPretty(true) was called, it is a single line without control characters; it never contains U+2028 or U+2029.", "quantifier": "every BOM with any strings in it", "why_tests_cant": "strings with the critical characters can occur in hundreds of places", "anchors": ["encode.go:jsonBOMEncoder.Encode", "encode.go:SetEscapeHTML", "encode.go:SetPretty"]}
{"id": "C49", "title": "Reading, writing and reading an XML document again", "statement": "If an XML document decodes and the BOM is encoded as XML again, that succeeds and decoding it yields the same BOM.", "quantifier": "every XML document", "why_tests_cant": "there are infinitely many documents, and each kind of element has its own reader and writer", "anchors": ["encode.go:xmlBOMEncoder.Encode", "decode.go:xmlBOMDecoder.Decode", "cyclonedx_xml.go"]}
{"id": "C50", "title": "Exactly the unambiguous BOMs can be written as XML, and what is written can be read", "statement": "Encoding as XML succeeds exactly if, at any depth, every license has either an identifier or a name, no license choice has both a license and an expression, no environment variable both a property and a value, no asserter both an organisation and an individual, no certificate state or extension both of its forms, and no tools are in both forms; the version of the BOM does not matter. Whatever is written, decoding accepts.", "quantifier": "every BOM", "why_tests_cant": "an ambiguous value can sit at any place of an arbitrarily nested document", "anchors": ["encode.go:xmlBOMEncoder.Encode", "decode.go:xmlBOMDecoder.Decode", "cyclonedx_xml.go"]}
{"id": "C51", "title": "EncodeVersion as XML", "statement": "For every BOM and each of the eight versions v: if the BOM can be encoded as XML, EncodeVersion to v succeeds; what it writes is in the namespace of v; decoding it succeeds and yields a BOM that reports v, and it is the converted BOM if that uses only what XML can represent.", "quantifier": "every BOM and version", "why_tests_cant": "composition of copy, convert, encode and decode over all documents", "anchors": ["encode.go:xmlBOMEncoder.EncodeVersion", "decode.go:xmlBOMDecoder.Decode", "convert.go", "copy.go", "cyclonedx_xml.go"]}
{"id": "C52", "title": "EncodeVersion as JSON writes only what the schema of the version declares", "statement": "For every BOM and each version v from 1.2 on: every member of every object in what EncodeVersion writes for v, at any depth, is a member that the JSON schema of v declares at that place, with a value of a declared kind; in particular nothing is null.", "quantifier": "every BOM and version", "why_tests_cant": "hundreds of fields, each introduced by some version, at arbitrary depth; the tests validate a few documents", "anchors": ["encode.go:jsonBOMEncoder.EncodeVersion", "convert.go", "cyclonedx.go", "schema/bom-1.2-strict.schema.json", "schema/bom-1.7.schema.json"]}
{"id": "C53", "title": "EncodeVersion as XML writes documents with the structure of the schema", "statement": "For every BOM and each of the eight versions v: the document that EncodeVersion writes for v has the structure that the XML schema of v declares, at any depth: every element is declared where it is, in the declared order and as often as declared, every attribute is declared, no required element or attribute is missing, and there is text only where it is allowed.", "quantifier": "every BOM and version", "why_tests_cant": "hundreds of elements in a prescribed order, each introduced by some version, at arbitrary depth; the tests validate a few documents", "anchors": ["encode.go:xmlBOMEncoder.EncodeVersion", "convert.go", "cyclonedx.go", "cyclonedx_xml.go", "schema/bom-1.0.xsd", "schema/bom-1.7.xsd"]}
{"id": "C54", "title": "Round trips of XML texts", "statement": "For every BOM, if Encode as XML (with any options, onto any writer) reports success, decoding the text that the writer received succeeds and yields the same BOM exactly if the BOM uses only what XML can represent; what EncodeVersion writes for version v decodes to a BOM that reports v and its namespace. (Elements nested more than 10000 deep are excepted.)", "quantifier": "every BOM, with any strings in it, and every way of cutting the output into pieces", "why_tests_cant": "escaping, indentation, tokenising and the treatment of white space interact with strings at any depth", "anchors": ["encode.go:xmlBOMEncoder.Encode", "encode.go:xmlBOMEncoder.EncodeVersion", "decode.go:xmlBOMDecoder.Decode", "cyclonedx_xml.go"]}
{"id": "C55", "title": "XML output is a well-formed XML 1.0 document", "statement": "For every BOM, if Encode as XML reports success, the text written is well-formed according to the grammar of XML 1.0 (one root element, matching tags, no attribute twice, only allowed characters), and its only reading is the tree of elements that represents the BOM, up to white space between elements if the output is indented: no string in the BOM can add or close an element.", "quantifier": "every BOM with any strings in it", "why_tests_cant": "strings that contain markup can occur in hundreds of places", "anchors": ["encode.go:xmlBOMEncoder.Encode", "cyclonedx.go", "cyclonedx_xml.go"]}
{"id": "C56", "title": "The options do not change what XML output means", "statement": "For every BOM and any two settings of SetPretty and SetEscapeHTML, the XML encoder succeeds with one if with the other, and the two outputs decode to the same BOM; SetEscapeHTML has no effect.", "quantifier": "every BOM and all settings", "why_tests_cant": "indentation adds text to elements whose readers might take it for content, at arbitrary depth", "anchors": ["encode.go:xmlBOMEncoder.SetPretty", "encode.go:xmlBOMEncoder.SetEscapeHTML", "encode.go:xmlBOMEncoder.Encode", "decode.go:xmlBOMDecoder.Decode"]}
{"id": "C57", "title": "Malformed XML is refused, the layout of XML is irrelevant", "statement": "Whatever decodes from XML was a text of the grammar (tags that match, quoted attributes, known entities, allowed characters, up to the end of the root element) whose root element is called bom; two texts of the same document, which may differ in comments, references, quotes and white space within tags, are decoded alike.", "quantifier": "every text", "why_tests_cant": "the texts of a document are infinitely many; malformed texts likewise", "anchors": ["decode.go:xmlBOMDecoder.Decode"]}
{"id": "C58", "title": "The XML encoder reports success exactly if the whole document was written", "statement": "For every BOM and every writer, which may refuse any of its calls: Encode as XML reports success exactly if the BOM can be represented unambiguously and the writer accepted every call; then it has received the whole document. Otherwise an error is reported; the XML declaration has been written in any case, and what was written of a BOM that can be represented is a beginning of its document.", "quantifier": "every BOM and every behaviour of the writer", "why_tests_cant": "a writer may fail at any byte, and a BOM at any depth", "anchors": ["encode.go:xmlBOMEncoder.Encode"]}
{"id": "C59", "title": "The root element of XML output identifies the BOM", "statement": "For every BOM, the root element of the XML output is bom in the namespace XMLNS and has exactly the attributes xmlns, serialNumber (if there is a serial number) and version, with the values of the BOM; version is there even if it is 0.", "quantifier": "every BOM", "why_tests_cant": "all integers and strings", "anchors": ["encode.go:xmlBOMEncoder.Encode", "cyclonedx.go:BOM"]}
{"id": "C60", "title": "From one format to the other", "statement": "A BOM that was read in one format and is written in the other (and back) is written as a document of CycloneDX that identifies itself as such, in the version asked for, and has the same contents when it is read.", "quantifier": "every BOM and document", "why_tests_cant": "two codecs with hundreds of fields each must agree on every content", "anchors": ["encode.go:BOMEncoder", "decode.go:BOMDecoder", "convert.go", "cyclonedx_json.go", "cyclonedx_xml.go"]}
{"id": "C61", "title": "The conversion, as it is written, computes the converted BOM in a copy and never panics", "statement": "For every BOM, with whatever sharing of lists and pointers among its parts, and every version: the sequence of assignments through pointers, new objects and rebuilt lists that EncodeVersion performs on its copy of the BOM ends, follows no nil pointer and leaves no index out of range; the BOM it leaves behind is the one described by the properties on conversion, in all of its fields; and no variable reachable by the caller is assigned to.", "quantifier": "every BOM, heap and version; components nested to any depth", "why_tests_cant": "assignments through pointers interact if two of them lead to the same variable; the number of ways in which a BOM can share its parts is unbounded", "anchors": ["convert.go", "copy.go", "encode.go:EncodeVersion"]}
{"id": "C62", "title": "Every field has its JSON member", "statement": "For every type of the library that is written as a JSON object and every field of it: the field is written under exactly one member, whose name is that of the field as the format has it (packageURL as purl, BOMRef as bom-ref, ...), with the value of the field and of no other; it is left out exactly if it is empty and may be left out; the same member is read into the same field and leaves all the others as they were; and no other member is written, or has any effect when read.", "quantifier": "every type and field, every value of every type, every object read", "why_tests_cant": "a swapped or misspelt name is invisible to a round trip, and a test compares only the fields that its sample sets", "anchors": ["cyclonedx.go", "cyclonedx_json.go"]}
{"id": "C63", "title": "Every field has its XML element, attribute or text", "statement": "For every type of the library that is written as an XML element and every field of it: the field is written as exactly the attribute, the elements or the text that the format has for it (BOMRef as the attribute bom-ref, Components as component elements in components, ...), with the value of the field and of no other; the same attribute, element or text is read into the same field and leaves all the others as they were; and no other attribute or element is written, or has any effect when read. Types with a choice between forms are written in the form of the alternative that is set and read back as that alternative.", "quantifier": "every type and field, every value of every type, every element read", "why_tests_cant": "a swapped or misspelt name is invisible to a round trip, and a test compares only the fields that its sample sets", "anchors": ["cyclonedx.go", "cyclonedx_xml.go"]}
{"id": "C64", "title": "EncodeVersion as JSON writes the members that the schema of the version requires", "statement": "For every BOM that has what the latest JSON schema requires, and each version v from 1.2 on: every object in what EncodeVersion writes for v, at any depth, has the members that the JSON schema of v requires at that place (the version of a component below 1.4, for instance, though later schemas do without it).", "quantifier": "every BOM and version", "why_tests_cant": "the schemas require different members of some fifty kinds of objects, at arbitrary depth; the tests validate a few documents", "anchors": ["encode.go:jsonBOMEncoder.EncodeVersion", "convert.go", "copy.go", "cyclonedx.go", "cyclonedx_json.go", "schema/bom-1.2.schema.json", "schema/bom-1.7.schema.json"]}
{"id": "C65", "title": "EncodeVersion as JSON writes only strings that the schema of the version enumerates", "statement": "For every BOM whose strings are enumerated by the latest JSON schema where it enumerates any (types of components and of references, algorithms, scopes, aggregates, methods, ...), and each version v from 1.2 on: every string in what EncodeVersion writes for v, at any depth, is one that the JSON schema of v enumerates at that place.", "quantifier": "every BOM, string and version", "why_tests_cant": "strings are arbitrary and occur at some sixty places at arbitrary depth; the enumerations grow from version to version; the tests convert single values", "anchors": ["encode.go:jsonBOMEncoder.EncodeVersion", "convert.go", "cyclonedx.go", "schema/bom-1.2.schema.json", "schema/bom-1.7.schema.json"]}
{"id": "C66", "title": "The exported constants are the strings that the schema enumerates", "statement": "For every field of an enumerated string type, the constants exported for that type are exactly the strings that the latest JSON schema enumerates for the member of that field; the identifier written for a version is the one its schema enumerates.", "quantifier": "every enumerated field and every string", "why_tests_cant": "the tests use a few of some four hundred constants; none compares them with the schemas", "anchors": ["cyclonedx.go", "convert.go", "schema/bom-1.7.schema.json", "schema/bom-1.2-strict.schema.json"]}
{"id": "C67", "title": "Decode accepts every JSON document that uses only what the schemas declare", "statement": "For every JSON document that has, at every place, only members declared by the JSON schema of some version from 1.2 to 1.7, with values of the declared kinds: Decode succeeds, into any BOM. It fails exactly if the document is nested deeper than encoding/json allows or has a value that the field cannot hold (a list of kinds of values at named places).", "quantifier": "every document and every BOM decoded into", "why_tests_cant": "documents have arbitrarily many members at arbitrary depth; the tests decode some hundred files and none of them has the values that are refused", "anchors": ["decode.go:jsonBOMDecoder.Decode", "cyclonedx_json.go", "cyclonedx.go", "schema/bom-1.7.schema.json"]}
{"id": "C68", "title": "What Decode reads from a JSON document is written again by Encode", "statement": "For every JSON document that has only what the JSON schema of some version declares, and no member twice: if Decode reads it into a new BOM and Encode writes that, everything the document says is in the new one, at the same place, and the new one says nothing else. Empty strings, false and 0 may be left out.", "quantifier": "every document", "why_tests_cant": "the tests compare snapshots of documents that only use what is kept; nothing tells which members of the schemas have no field", "anchors": ["decode.go:jsonBOMDecoder.Decode", "encode.go:jsonBOMEncoder.Encode", "cyclonedx_json.go", "cyclonedx.go:JSFSignature", "cyclonedx.go:MLModelCard", "schema/bom-1.7.schema.json"]}
{"id": "C69", "title": "What Decode yields depends only on the document", "statement": "For every JSON or XML document and any two BOMs: Decode of the document into the one fails exactly if it fails into the other, and otherwise both hold the same afterwards.", "quantifier": "every document and every two BOMs decoded into", "why_tests_cant": "the tests decode into new BOMs only; what an old BOM leaves behind depends on both the document and the BOM, at every depth", "anchors": ["decode.go:jsonBOMDecoder.Decode", "decode.go:xmlBOMDecoder.Decode", "cyclonedx_json.go", "cyclonedx_xml.go"]}
{"id": "C70", "title": "Decoding a JSON document again changes nothing", "statement": "For every JSON document in which no object has the same member twice, and every BOM: if Decode reads the document into the BOM, then reading the same document once more into that BOM succeeds and leaves it as it is.", "quantifier": "every document without repeated members and every BOM decoded into", "why_tests_cant": "holds at every depth of nesting and for every custom UnmarshalJSON; the tests never decode twice into one BOM", "anchors": ["decode.go:jsonBOMDecoder.Decode", "cyclonedx_json.go"]}
{"id": "C71", "title": "Which XML documents of the form of the schemas Decode refuses", "statement": "For every version and every XML document whose elements, attributes and text are where the XML schema of that version declares them, and every BOM decoded into: Decode fails exactly if somewhere in the document, at any depth, a text that is taken as a boolean or number (the version of the BOM, tagVersion and patch of SWID tags, modified, authenticated, x-trust-boundary, cwe, confidence, line, column, score, thirdParty, security levels, size, esn, persistent, remote, keyLength, group, value of measures) is neither empty nor, without the white space around it, one of that type.", "quantifier": "every document of the form of a schema, of any size and depth, and every BOM decoded into", "why_tests_cant": "every element of every place, in any combination and nesting, goes through generated and hand-written decoders; a test shows one document that is read", "anchors": ["decode.go:xmlBOMDecoder.Decode", "cyclonedx_xml.go", "cyclonedx.go", "schema/bom-1.7.xsd"]}
{"id": "C72", "title": "What Decode reads from an XML document of the form of the schemas, Encode writes again", "statement": "For every version and every XML document whose elements, attributes and text are where the XML schema of that version declares them: if Decode reads it into an empty BOM and Encode writes that BOM, then at every depth each element, attribute and text of the document that says something is again in the written document at the same place, in the same order among those of its name, with the same text (characters XML cannot have replaced) or, where it is a boolean or number, the same value; and what the written document has beyond that is empty. Not claimed, because the types have no place for it: a fixed list of elements and attributes (such as line, offset and symbol of an occurrence, the url of a SWID tag, the target of a claim, dependencies inside dependencies), elements repeated where they have place for one, and license expressions beside an expression-detailed without details, which is written as an expression.", "quantifier": "every document of the form of a schema that is read, of any size and depth", "why_tests_cant": "data can be lost for one element in one place, or only beside another one, and what is lost on reading is not missed by tests that start from the Go types", "anchors": ["decode.go:xmlBOMDecoder.Decode", "encode.go:xmlBOMEncoder.Encode", "cyclonedx_xml.go", "cyclonedx.go", "schema/bom-1.7.xsd"]}
{"id": "C73", "title": "XML strings are among those that the schema of the version enumerates", "statement": "For every BOM and every version: where the XML schema of that version enumerates the values of an attribute or the texts of an element (types, scopes, algorithms, aggregates, states, ...), what EncodeVersion writes there, at any depth, is one of the enumerated strings; strings that only later versions enumerate are replaced or removed.", "quantifier": "every BOM, every spec version, every enumerated place at every depth", "why_tests_cant": "there are 48 enumerations that grow from version to version and a place for them at every depth; one string left behind at one place for one version makes the document invalid", "anchors": ["convert.go", "encode.go:xmlBOMEncoder.EncodeVersion", "cyclonedx_xml.go", "cyclonedx.go", "schema/bom-1.0.xsd", "schema/bom-1.7.xsd"]}
{"id": "C74", "title": "The exported constants are the strings that the XML schemas enumerate", "statement": "For every field with an exported type whose attribute or element the latest XML schema enumerates, the constants exported for the type are exactly the enumerated strings, and no enumeration is without such a field.", "quantifier": "every enumeration of the XML schemas and every constant", "why_tests_cant": "a constant that is spelled differently produces an invalid document and no error, and tests use the constants on both sides", "anchors": ["cyclonedx.go:const", "schema/bom-1.7.xsd"]}
{"id": "C75", "title": "Decode does not depend on how the reader delivers the text, and reports its failures", "statement": "For every reader: how it divides the text into calls of Read makes no difference to Decode. Decode of JSON returns the error of a reader that fails, whatever it had read before, and succeeds only on the whole text. Decode of XML decodes the text up to the end of the root element: a reader that ends, fails or returns nothing a hundred times in a row before that is an error, and what it does after that is not noticed.", "quantifier": "every reader that ends or fails, every way of dividing a text", "why_tests_cant": "the ways to divide a text and the places at which a reader can fail are too many; tests read from one buffer", "anchors": ["decode.go:jsonBOMDecoder.Decode", "decode.go:xmlBOMDecoder.Decode"]}
{"id": "C76", "title": "A truncated document is refused", "statement": "If a text is accepted by Decode of JSON, none of its proper beginnings is, apart from those that lack only white space. If an XML document ends with its root element, as all documents that Encode writes do, none of its proper beginnings is accepted. So what a broken-off download or an interrupted Encode leaves behind is never taken for a smaller BOM.", "quantifier": "every accepted document, every place at which it is cut", "why_tests_cant": "a document of n bytes can be cut at n places, and the claim is about all documents", "anchors": ["decode.go", "encode.go"]}
{"id": "C77", "title": "Several documents in one reader", "statement": "Calls of Decode on one XML decoder decode one document after the other if the reader is an io.ByteReader or returns each document from a call of Read of its own; from any other reader, what was returned after the end of the first document in the same call is lost. A second Decode on a JSON decoder fails, and so does Decode on two JSON documents.", "quantifier": "every sequence of documents", "why_tests_cant": "the number and the contents of the documents are unbounded, and the outcome depends on the reader", "anchors": ["decode.go", "encode.go"]}
{"id": "C78", "title": "Documents are bytes in UTF-8", "statement": "Encode writes the UTF-8 encoding of the text of the document, which is the only encoding of that text. Decode reads UTF-8. Decode of JSON takes a byte that is not part of the encoding of a character for U+FFFD. What Decode of XML makes of any bytes is a document with characters only that XML allows: bytes that are not UTF-8 never become part of the BOM.", "quantifier": "every sequence of bytes", "why_tests_cant": "there are more than a million characters, and malformed sequences (overlong forms, surrogates, truncated sequences) of many kinds", "anchors": ["decode.go:jsonBOMDecoder.Decode", "decode.go:xmlBOMDecoder.Decode", "encode.go"]}
{"id": "C79", "title": "What NewBOMEncoder(f) writes, NewBOMDecoder(f) reads, for every format f, end to end", "statement": "For every value of BOMFileFormat, all settings of the encoder and however a reader hands over the bytes that were written: Decode yields the BOM, up to the fields that the format does not have, exactly if the BOM uses only what the format can represent. What EncodeVersion writes for a version is read without an error, and the BOM that is read reports that version. Every value of BOMFileFormat other than BOMFileFormatJSON is XML, for encoders and decoders alike.", "quantifier": "every BOMFileFormat, BOM, version, setting, and division of the bytes", "why_tests_cant": "tests round-trip some BOMs through one buffer in the two named formats", "anchors": ["decode.go:NewBOMDecoder", "encode.go:NewBOMEncoder", "cyclonedx.go:BOMFileFormat"]}
{"id": "C80", "title": "A decoder for the wrong format refuses what was written", "statement": "Decode of JSON refuses whatever Encode writes as XML, and Decode of XML refuses whatever Encode writes as JSON; so a file with the wrong extension is not taken for another BOM.", "quantifier": "every BOM, all settings of the encoder", "why_tests_cant": "the contents of the BOM are unbounded, and decide whether there is something in the output that the other decoder accepts", "anchors": ["decode.go", "encode.go"]}
{"id": "C81", "title": "Identifiers stay unique", "statement": "If the document that Encode writes for a BOM has no bom-ref twice, neither has the document that EncodeVersion writes, in any version and in both formats: conversion removes identifiers but neither invents, copies nor merges any, and those that remain are in the same order.", "quantifier": "every BOM, every version, both formats", "why_tests_cant": "identifiers occur in dozens of types at any depth; conversion copies parts of a BOM from one place to another (tools, licenses, organizations)", "anchors": ["encode.go:EncodeVersion", "convert.go:convert", "cyclonedx.go:BOM"]}
{"id": "C82", "title": "The dependency graph stays closed", "statement": "If everything the dependencies of a BOM refer to is in the document that Encode writes, then everything the dependencies refer to in the document that EncodeVersion writes is in that document: there are no dangling references, in both formats.", "quantifier": "every BOM, every version, both formats", "why_tests_cant": "what is removed depends on the version and the place, and a dependency may refer to anything at any depth", "anchors": ["encode.go:EncodeVersion", "convert.go:convert", "convert.go:convertTools", "cyclonedx.go:Dependency"]}
{"id": "C83", "title": "Conversion does not make the elements of a list equal", "statement": "The JSON schemas require of most arrays that no two elements are equal (uniqueItems). If the document that Encode writes has no array with an element twice, neither has the one that EncodeVersion writes.", "quantifier": "every BOM, every version", "why_tests_cant": "two elements become equal if conversion removes or replaces everything in which they differ", "anchors": ["encode.go:EncodeVersion", "convert.go:componentConverter", "convert.go:convert", "schema/bom-1.4.schema.json"]}
{"id": "C84", "title": "Vulnerabilities, compositions and annotations keep referring to what is in the document", "statement": "If what the vulnerabilities affect, the assemblies and dependencies of the compositions and the subjects of the annotations of a BOM are components or services of the BOM, and the vulnerabilities of the compositions are vulnerabilities of the BOM, then everything they refer to in the document that EncodeVersion writes is in that document, in every version and in both formats; and no such reference is added.", "quantifier": "every such BOM, every version, both formats", "why_tests_cant": "the referring part, the reference and what it refers to are each removed before different versions, and the target may be at any depth", "anchors": ["encode.go:EncodeVersion", "convert.go:convert", "convert.go:convertCompositions", "convert.go:convertVulnerabilities", "convert.go:convertAnnotations", "cyclonedx.go:Affects", "cyclonedx.go:Composition", "cyclonedx.go:Annotation"]}
{"id": "C85", "title": "A document that already conforms to a version is written unchanged for that version", "statement": "If the document that Encode writes of a BOM of some version, in JSON or XML, has only what the schema of that version declares, all that it requires and only strings that it enumerates, then EncodeVersion for that version writes the same document. In general, which BOMs the conversion to a version changes is known exactly.", "quantifier": "every BOM, every version", "why_tests_cant": "every field of every type must be removed below exactly the version that introduces it, and every enumeration must agree with the schema; one exception anywhere changes documents that were fine", "anchors": ["encode.go:EncodeVersion", "convert.go:convert", "convert.go:componentConverter", "convert.go:serviceConverter", "convert.go:convertMetadata", "convert.go:convertVulnerabilities", "copy.go:BOM.copy"]}
{"id": "C86", "title": "BOM-Links agree with the patterns of the schemas", "statement": "The JSON and XML schemas 1.5 to 1.7 declare by patterns what a link to a document and what a link to an element of a document is. What String returns for a link made by NewBOMLink or ParseBOMLink matches the first exactly if the link has no reference and the second exactly if it has one, whatever the reference contains; no text matches both. IsBOMLink accepts exactly the texts that match one of them. NewBOMLink accepts exactly the serial numbers that the schemas allow.", "quantifier": "every text, serial number, version and reference", "why_tests_cant": "references are arbitrary texts; that no text is accepted by one side and not by the other is a claim about all texts", "anchors": ["link.go:NewBOMLink", "link.go:BOMLink.String", "link.go:IsBOMLink", "link.go:ParseBOMLink", "cyclonedx.go:serialNumberRegex", "schema/bom-1.6.schema.json:bomLink", "schema/bom-1.7.xsd:bomLinkType"]}
{"id": "C87", "title": "Of alternatives, one is written", "statement": "Where the JSON schema of a version excludes members of an object from each other (oneOf and not: a license or an expression, the id or the name of a license, the version or the range of an affected version, the kinds of annotators, of inputs and outputs of tasks, of signatures, the version or the version range of a component, ...) or an expression from a list of several licenses, a BOM that has a value for only one of them is written with only one of them, by Encode and, for every version, by EncodeVersion: neither the deep copy nor the conversion adds an alternative, not even where it supplies the version of a component. Alternatives allowed by the latest version are written for older versions as these allow.", "quantifier": "every BOM and version, objects at any depth", "why_tests_cant": "that no object of any document has two of the alternatives is a claim about all BOMs and all depths; validation of fixtures checks the objects in them", "anchors": ["encode.go:jsonBOMEncoder.Encode", "encode.go:jsonBOMEncoder.EncodeVersion", "convert.go:BOM.convert", "copy.go:BOM.copy", "cyclonedx_json.go", "schema/bom-1.7.schema.json"]}
{"id": "C88", "title": "A document that is read and written again stays within its schema", "statement": "If a JSON document uses only what the schema of a version declares, then the document that Encode writes of the BOM that Decode reads from it uses only what the schema of that same version declares: members that have no value are left out rather than written as null, choices between kinds of values are written as one of the kinds the version declares, and nothing is moved to a member that the version does not have, even if members are repeated.", "quantifier": "every document of every version, nested to any depth, that is read and can be written", "why_tests_cant": "documents are unbounded, and one field of one of some two hundred types that is written although it was not read breaks the claim; round trips of fixtures cover the members in them", "anchors": ["decode.go:jsonBOMDecoder.Decode", "encode.go:jsonBOMEncoder.Encode", "cyclonedx.go:BOM", "cyclonedx.go:PatentAssertion", "cyclonedx_json.go", "schema/bom-1.6.schema.json"]}
{"id": "C89", "title": "A document that is read and written again keeps what its schema requires", "statement": "If a JSON document uses only what the schema of a version declares and has everything that it requires, then the document that Encode writes of the BOM that Decode reads from it has everything that the schema of that same version requires: no required member is lost, where the schema requires one of several members one of them is still there, and no object is added that lacks something.", "quantifier": "every document of every version, nested to any depth, that is read and can be written", "why_tests_cant": "documents are unbounded, and a required member is lost when any one field drops a value that the schema allows; fixtures have the values that somebody thought of", "anchors": ["decode.go:jsonBOMDecoder.Decode", "encode.go:jsonBOMEncoder.Encode", "cyclonedx.go:Annotation", "cyclonedx.go:JSFSigner", "cyclonedx.go:CertificateExtension", "cyclonedx_json.go", "schema/bom-1.5.schema.json"]}
{"id": "C90", "title": "A document that is read and written again keeps to the strings that its schema enumerates", "statement": "If a JSON document uses only what the schema of a version declares, has everything that it requires, and wherever the schema enumerates the strings that are allowed has one of them, then in the document that Encode writes of the BOM that Decode reads from it every string at such a place is again one of those that the schema of that same version enumerates.", "quantifier": "every document of every version, nested to any depth, that is read and can be written", "why_tests_cant": "documents are unbounded and there are forty places with enumerations; a field that is always written gets an empty string wherever a document has left its member out, which shows only in documents that leave out just that member", "anchors": ["decode.go:jsonBOMDecoder.Decode", "encode.go:jsonBOMEncoder.Encode", "cyclonedx.go:AffectedVersions", "cyclonedx.go:PatentChoice", "cyclonedx.go:CertificateState", "cyclonedx_json.go", "schema/bom-1.7.schema.json"]}
{"id": "C91", "title": "A document that is read and written again keeps to one of the alternatives of its schema", "statement": "If a JSON document uses only what the schema of a version declares, nowhere has two members that this schema excludes from each other (nor an expression in a list of several licenses, where that is excluded), and repeats no member, then the same holds for the document that Encode writes of the BOM that Decode reads from it: reading and writing never adds a second alternative to the one that is there.", "quantifier": "every document of every version, nested to any depth, that is read and can be written", "why_tests_cant": "documents are unbounded, and a second alternative appears wherever a field is written that was not read, or a value is read into the wrong one of two fields", "anchors": ["decode.go:jsonBOMDecoder.Decode", "encode.go:jsonBOMEncoder.Encode", "cyclonedx.go:LicenseChoice", "cyclonedx.go:AffectedVersions", "cyclonedx.go:MLDatasetChoice", "cyclonedx_json.go", "schema/bom-1.5.schema.json"]}
{"id": "C92", "title": "A document that is read and written for another version keeps to the schema of that version", "statement": "If a JSON document has what the schema of the latest version requires, keeps to one of its alternatives and has only strings that it enumerates, then the document that EncodeVersion writes of the BOM read from it has what the schema of the version written for requires, keeps to one of the alternatives of that schema and has only strings that it enumerates.", "quantifier": "every document of the latest version, nested to any depth, and every version it is written for", "why_tests_cant": "documents are unbounded and there are eight versions; the document passes through decoding, a deep copy through another encoding, the conversion and encoding", "anchors": ["decode.go:jsonBOMDecoder.Decode", "encode.go:jsonBOMEncoder.EncodeVersion", "convert.go:BOM.convert", "copy.go:BOM.copy", "cyclonedx_json.go", "schema/bom-1.7.schema.json"]}
{"id": "C93", "title": "A document that is read and written again says nothing new", "statement": "Every string and every boolean in the JSON document that Encode writes of the BOM that Decode reads from a document is in that document, below members of the same names (up to case), unless it is the empty string or false: no value is made up, none is moved to another member. So the document written has every property of the strings of its members that the document read has and the empty string has, such as the patterns and maximal lengths of the schemas. If a second document is read into the same BOM, every string and boolean written is in one of the two.", "quantifier": "every JSON document, whether or not it keeps to a schema, nested to any depth, that is read and can be written, and every condition on strings and the members they are below", "why_tests_cant": "documents are unbounded, and there are more than a thousand fields, each of which could be written under the name of another", "anchors": ["decode.go:jsonBOMDecoder.Decode", "encode.go:jsonBOMEncoder.Encode", "cyclonedx.go", "cyclonedx_json.go"]}
{"id": "C94", "title": "An XML document that is read and written again says nothing new", "statement": "Every attribute value and every element's character data in the XML document that Encode writes of the BOM that Decode reads from a document is an attribute value or the character data of an element of that document, perhaps with white space around it left out, and with characters that XML does not allow replaced; unless it is a truth value, consists of the characters of numbers only, or is empty. So no text is made up, and none is composed of others. If a second document is read into the same BOM, this is so of the two documents together.", "quantifier": "every XML document, whether or not it keeps to a schema, nested to any depth, that is read and can be written, and every order of the namespace table", "why_tests_cant": "documents are unbounded, and a score of types have marshalling code of their own that could put in text or run texts together", "anchors": ["decode.go:xmlBOMDecoder.Decode", "encode.go:xmlBOMEncoder.Encode", "cyclonedx.go", "cyclonedx_xml.go"]}
